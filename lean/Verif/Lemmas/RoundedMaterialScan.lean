import Verif.Model.RoundedMaterialScan
import Verif.Props.RoundedMaterial
import Verif.Props.RoundedUtilities

/-!
# Lemmas for the material along a direction in double precision
-/

open Classical

noncomputable section

namespace Verif

open Dbl Rnd Spec Rounded MatScan

variable {fl : ℝ → ℝ} {lm : Libm} {at2 : ℝ → ℝ → ℝ} {asn atn tn : ℝ → ℝ}

theorem mPi_ap : Ap 0 1 (fin mPi) (fin Real.pi) (315 / 100) 2 := by
  obtain ⟨h1, h2, h3, h4⟩ := mPi_bounds
  refine ⟨by norm_num, by norm_num, mPi, Real.pi, rfl, rfl, by rw [one_mul]; exact h1, ?_⟩
  rw [abs_of_pos Real.pi_pos, mul_one]
  have := Real.pi_lt_d2
  norm_num at *
  linarith

/-- the conversion of degrees -/
theorem radians_ap (h : NearestF 53 1074 fl) {deg : ℝ} (hd : |deg| ≤ 720) :
    Ap 0 1 (radians fl (fin deg)) (fin (deg / 180 * Real.pi)) (126 / 10) 34 := by
  have q : Ap 0 1 (divD fl (fin deg) 180) (fin (deg / 180)) 4 (4001 / 1000) := by
    rw [divD, show (180 : Dbl) = fin 180 from rfl, fin_div _ (by norm_num)]
    refine (Ap.round (B := 4) (e := 0) h (by norm_num) (by norm_num) (by norm_num) (by norm_num) (by norm_num) (by simp) ?_).mono le_rfl (by norm_num)
    rw [abs_div, abs_of_pos (show (0 : ℝ) < 180 by norm_num), div_le_iff₀ (by norm_num)]
    linarith
  have m := Ap.mul h q mPi_ap (by norm_num) (by norm_num) (by norm_num) (by norm_num)
  rw [fin_mul, one_mul] at m
  exact m.mono (by norm_num) (by norm_num)

/-- the direction -/
theorem direction_ap (h : NearestF 53 1074 fl) (hl : IsLibm lm) {A B : Dbl} {θ φ a b : ℝ} (hA : Ap 0 1 A (fin θ) a 34) (hB : Ap 0 1 B (fin φ) b 34) :
    ∃ px py pz : ℝ, scanDirection fl lm A B = V3.re px py pz ∧ |px - Real.sin θ * Real.cos φ| ≤ 77 / 2 ^ 53 ∧
      |py - Real.sin θ * Real.sin φ| ≤ 77 / 2 ^ 53 ∧ |pz - Real.cos θ| ≤ 77 / 2 ^ 53 := by
  have one : Ap 0 1 (1 : Dbl) (fin 1) 1 0 := by
    rw [one_eq]
    exact Ap.unit (by norm_num)
  have s := hA.sin hl
  have c := hA.cos hl
  have s' := hB.sin hl
  have c' := hB.cos hl
  rw [sin_fin] at s s'
  rw [cos_fin] at c c'
  have r := Ap.mulr h one s (by norm_num) (by norm_num) (by norm_num) (by norm_num)
  have z := Ap.mulr h one c (by norm_num) (by norm_num) (by norm_num) (by norm_num)
  have x := Ap.mulr h r c' (by norm_num) (by norm_num) (by norm_num) (by norm_num)
  have y := Ap.mulr h r s' (by norm_num) (by norm_num) (by norm_num) (by norm_num)
  rw [fin_mul, one_mul] at z
  rw [fin_mul, fin_mul, one_mul] at x y
  have get : ∀ {D : Dbl} {t B e : ℝ}, Ap 0 1 D (fin t) B e → e ≤ 77 → ∃ r, D = fin r ∧ |r - t| ≤ 77 / 2 ^ 53 := by
    intro D t B e g he
    obtain ⟨r, _, e1, e2, e3, -⟩ := g.val
    injection e2 with e2
    subst e2
    refine ⟨r, e1, e3.trans ?_⟩
    rw [one_mul, mul_one_div]
    exact div_le_div_of_nonneg_right he (by positivity)
  obtain ⟨px, x1, x2⟩ := get x (by norm_num)
  obtain ⟨py, y1, y2⟩ := get y (by norm_num)
  obtain ⟨pz, z1, z2⟩ := get z (by norm_num)
  refine ⟨px, py, pz, ?_, x2, y2, z2⟩
  rw [scanDirection, spherical, V3.re, ← x1, ← y1, ← z1]

/-- a vector next to one of length 1: its length, and the cosine -/
theorem unit_near {px py pz dx dy dz nx ny nz ε : ℝ} (hd : dx ^ 2 + dy ^ 2 + dz ^ 2 = 1) (hN : nx ^ 2 + ny ^ 2 + nz ^ 2 ≤ (1001 / 1000) ^ 2)
    (hx : |px - dx| ≤ ε) (hy : |py - dy| ≤ ε) (hz : |pz - dz| ≤ ε) (hε : ε ≤ 1 / 10 ^ 6) :
    |√(px ^ 2 + py ^ 2 + pz ^ 2) - 1| ≤ 7 * ε ∧
    |crossingCos px py pz nx ny nz - (|dx * nx + dy * ny + dz * nz|)| ≤ 11 * ε := by
  have ε0 : 0 ≤ ε := (abs_nonneg _).trans hx
  have b1 : ∀ {t : ℝ}, t ^ 2 ≤ 1 → |t| ≤ 1 := fun {t} ht => abs_le_of_sq_le_sq (by linarith) (by norm_num)
  have b2 : ∀ {t : ℝ}, t ^ 2 ≤ (1001 / 1000) ^ 2 → |t| ≤ 1001 / 1000 := fun {t} ht => abs_le_of_sq_le_sq ht (by norm_num)
  have dx1 := b1 (t := dx) (by nlinarith [sq_nonneg dy, sq_nonneg dz])
  have dy1 := b1 (t := dy) (by nlinarith [sq_nonneg dx, sq_nonneg dz])
  have dz1 := b1 (t := dz) (by nlinarith [sq_nonneg dx, sq_nonneg dy])
  have nx1 := b2 (t := nx) (by nlinarith [sq_nonneg ny, sq_nonneg nz])
  have ny1 := b2 (t := ny) (by nlinarith [sq_nonneg nx, sq_nonneg nz])
  have nz1 := b2 (t := nz) (by nlinarith [sq_nonneg nx, sq_nonneg ny])
  obtain ⟨P, hP⟩ : ∃ t, t = √(px ^ 2 + py ^ 2 + pz ^ 2) := ⟨_, rfl⟩
  have P0 : 0 ≤ P := hP ▸ Real.sqrt_nonneg _
  have PP : P ^ 2 = px ^ 2 + py ^ 2 + pz ^ 2 := by rw [hP]; exact Real.sq_sqrt (by positivity)
  have sq1 : ∀ {p d : ℝ}, |p - d| ≤ ε → |d| ≤ 1 → |p ^ 2 - d ^ 2| ≤ 21 / 10 * ε := by
    intro p d i1 i2
    rw [show p ^ 2 - d ^ 2 = (p - d) * (p - d + 2 * d) by ring, abs_mul]
    have : |p - d + 2 * d| ≤ 21 / 10 := by
      refine (abs_add_le _ _).trans ?_
      rw [abs_mul, abs_of_pos (show (0 : ℝ) < 2 by norm_num)]
      linarith
    calc _ ≤ ε * (21 / 10) := mul_le_mul i1 this (abs_nonneg _) ε0
      _ = _ := mul_comm _ _
  have k1 : |P ^ 2 - 1| ≤ 63 / 10 * ε := by
    rw [PP, ← hd, show px ^ 2 + py ^ 2 + pz ^ 2 - (dx ^ 2 + dy ^ 2 + dz ^ 2) = (px ^ 2 - dx ^ 2) + (py ^ 2 - dy ^ 2) + (pz ^ 2 - dz ^ 2) by ring]
    refine (abs_add_three _ _ _).trans ?_
    linarith [sq1 hx dx1, sq1 hy dy1, sq1 hz dz1]
  have k2 : |P - 1| ≤ 63 / 10 * ε := by
    refine le_trans ?_ k1
    rw [show P ^ 2 - 1 = (P - 1) * (P + 1) by ring, abs_mul]
    refine le_mul_of_one_le_right (abs_nonneg _) ?_
    rw [abs_of_nonneg (by linarith)]
    linarith
  rw [← hP]
  refine ⟨by linarith, ?_⟩
  have P9 : 999 / 1000 ≤ P := by linarith [(abs_le.1 k2).1]
  have Pp : 0 < P := by linarith
  have m1 : ∀ {p d n : ℝ}, |p - d| ≤ ε → |n| ≤ 1001 / 1000 → |p * n - d * n| ≤ 1001 / 1000 * ε := by
    intro p d n i1 i2
    rw [← sub_mul, abs_mul]
    calc _ ≤ ε * (1001 / 1000) := mul_le_mul i1 i2 (abs_nonneg _) ε0
      _ = _ := mul_comm _ _
  obtain ⟨D, hD⟩ : ∃ t, t = dx * nx + dy * ny + dz * nz := ⟨_, rfl⟩
  obtain ⟨Q, hQ⟩ : ∃ t, t = px * nx + py * ny + pz * nz := ⟨_, rfl⟩
  have QD : |Q - D| ≤ 31 / 10 * ε := by
    rw [hQ, hD, show px * nx + py * ny + pz * nz - (dx * nx + dy * ny + dz * nz) = (px * nx - dx * nx) + (py * ny - dy * ny) + (pz * nz - dz * nz) by ring]
    refine (abs_add_three _ _ _).trans ?_
    linarith [m1 hx nx1, m1 hy ny1, m1 hz nz1]
  have D1 : |D| ≤ 1001 / 1000 := by
    refine abs_le_of_sq_le_sq ?_ (by norm_num)
    have : D ^ 2 ≤ (dx ^ 2 + dy ^ 2 + dz ^ 2) * (nx ^ 2 + ny ^ 2 + nz ^ 2) := by
      rw [hD]
      nlinarith [sq_nonneg (dx * ny - dy * nx), sq_nonneg (dx * nz - dz * nx), sq_nonneg (dy * nz - dz * ny)]
    rw [hd, one_mul] at this
    exact this.trans hN
  rw [crossingCos, ← hP, ← hQ, ← hD]
  refine (abs_abs_sub_abs_le _ _).trans ?_
  rw [show Q / P - D = ((Q - D) + D * (1 - P)) / P by field_simp; ring, abs_div, abs_of_pos Pp, div_le_iff₀ Pp]
  refine (abs_add_le _ _).trans ?_
  rw [abs_mul, abs_sub_comm 1 P]
  have : |D| * |P - 1| ≤ 1001 / 1000 * (63 / 10 * ε) := mul_le_mul D1 k2 (abs_nonneg _) (by norm_num)
  nlinarith

/-- a sum of positive numbers with relative errors up to `E` -/
theorem foldl_rel (h : NearestF 53 1074 fl) {E : ℝ} (E0 : 0 ≤ E) (E1 : E ≤ 2 ^ 30) : ∀ (l : List (Dbl × ℝ)) (m : ℕ) (a : Dbl) (T : ℝ), m + l.length ≤ 2 ^ 20 →
    (∀ p ∈ l, Rel 423 p.1 p.2 E) → 0 ≤ T → T ≤ m * 2 ^ 423 → (∃ r, a = fin r ∧ |r - T| ≤ (E + 2 * m) * (T * (1 / 2 ^ 53))) →
    ∃ r, (l.map Prod.fst).foldl (addD fl) a = fin r ∧
      |r - (T + (l.map Prod.snd).sum)| ≤ (E + 2 * (m + l.length : ℕ)) * ((T + (l.map Prod.snd).sum) * (1 / 2 ^ 53)) := by
  intro l
  induction l with
  | nil =>
    intro m a T _ _ _ _ ha
    simpa using ha
  | cons p l ih =>
    intro m a T hm hl T0 T1 ha
    obtain ⟨r, rfl, hr⟩ := ha
    have hp := hl p (by simp)
    have p0 := hp.pos
    obtain ⟨s, es, hs⟩ := hp.val
    rw [List.length_cons] at hm
    have mb : (m : ℝ) + 1 ≤ 2 ^ 20 := by
      have : m + 1 ≤ 2 ^ 20 := by omega
      exact_mod_cast this
    have hi : T + p.2 ≤ ((m + 1 : ℕ) : ℝ) * 2 ^ 423 := by
      have := hp.hi
      push_cast
      linarith
    have near : |r + s - (T + p.2)| ≤ (E + 2 * m) * ((T + p.2) * (1 / 2 ^ 53)) := by
      rw [show r + s - (T + p.2) = (r - T) + (s - p.2) by ring]
      refine (abs_add_le _ _).trans ?_
      have : E * (p.2 * (1 / 2 ^ 53)) ≤ (E + 2 * m) * (p.2 * (1 / 2 ^ 53)) := mul_le_mul_of_nonneg_right (by linarith [Nat.cast_nonneg (α := ℝ) m]) (by positivity)
      linarith
    have R := Ap.round (k := 443) (B := 1) (S := T + p.2) (e := E + 2 * m) h ?_ ?_ (by norm_num) ?_ (by norm_num) near (by rw [one_mul, abs_of_pos (by linarith)])
    · obtain ⟨r', _, e1, e2, e3, -⟩ := R.val
      injection e2 with e2
      subst e2
      have st : |r' - (T + p.2)| ≤ (E + 2 * ((m + 1 : ℕ) : ℝ)) * ((T + p.2) * (1 / 2 ^ 53)) := by
        refine e3.trans (mul_le_mul_of_nonneg_right ?_ (by positivity))
        push_cast
        linarith
      obtain ⟨q, q1, q2⟩ := ih (m + 1) (fin r') (T + p.2) (by omega) (fun q hq => hl q (by simp [hq])) (by linarith) hi ⟨r', rfl, st⟩
      refine ⟨q, ?_, ?_⟩
      · rw [List.map_cons, List.foldl_cons, es, addD, fin_add, e1]
        exact q1
      · rw [List.map_cons, List.sum_cons, ← add_assoc, List.length_cons, show m + (l.length + 1) = m + 1 + l.length by ring]
        exact q2
    · refine le_trans ?_ (show p.2 ≤ T + p.2 by linarith)
      exact le_trans (one_div_le_one_div_of_le (by positivity) (pow_le_pow_right₀ (by norm_num) (by norm_num))) hp.lo
    · refine hi.trans ?_
      push_cast
      rw [show (443 : ℕ) = 20 + 423 by norm_num, pow_add]
      exact mul_le_mul_of_nonneg_right mb (by positivity)
    · norm_num at *
      linarith

end Verif
