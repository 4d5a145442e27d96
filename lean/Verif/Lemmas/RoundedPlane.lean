import Verif.Model.RoundedPlane
import Verif.Lemmas.ErrorCalculus
import Verif.Lemmas.TrackSide

/-!
# Rounding errors of the crossings of a circle and a line: distances of the computed points from both

All quantities in units of the geometry, `u` is the error of one operation.
-/

noncomputable section

namespace Verif

open Rnd

section
variable {u : ℝ}

/-- one coordinate of a computed crossing, for the computed distance `d` of the line and half chord `q` -/
theorem line_coord {nx ny x0 d q i n2 t1 t2 T V X σ : ℝ} (hu : 0 ≤ u) (hu' : u ≤ 1 / 1000000) (hx : |nx| ≤ 1) (hy : |ny| ≤ 1)
    (hx0 : |x0| ≤ 1) (hd' : |d| ≤ 31 / 10) (hq' : |q| ≤ 2) (hi : |i - 1 / n2| ≤ 8 * u) (hi' : |i| ≤ 11 / 10) (hσ : |σ| = 1)
    (h1 : |t1 - nx * d| ≤ u * (|nx * d| + 1 / 1000)) (h2 : |t2 - ny * q| ≤ u * (|ny * q| + 1 / 1000))
    (h3 : |T - (t1 + σ * t2)| ≤ u * (|t1 + σ * t2| + 1 / 1000)) (h4 : |V - T * i| ≤ u * (|T * i| + 1 / 1000))
    (h5 : |X - (x0 + V)| ≤ u * (|x0 + V| + 1 / 1000)) :
    |X - (x0 + (nx * d + σ * (ny * q)) * (1 / n2))| ≤ 80 * u := by
  have z : ∀ t : ℝ, |t - t| ≤ 0 := fun t => by simp
  have p1 := abs_mul_le_of hx hd'
  have p2 := abs_mul_le_of hy hq'
  have e1 := op_bound hu h1 p1
  have e2 := op_bound hu h2 p2
  have e2s : |σ * t2 - σ * (ny * q)| ≤ u * (1 * 2 + 1 / 1000) := by
    rw [← mul_sub, abs_mul, hσ, one_mul]
    exact e2
  have t2a : |σ * t2| ≤ 21 / 10 := by
    rw [abs_mul, hσ, one_mul]
    exact (abs_near e2).trans (by linarith)
  have t1a : |t1| ≤ 32 / 10 := (abs_near e1).trans (by linarith)
  have ta := (abs_add_le t1 (σ * t2)).trans (add_le_add t1a t2a)
  have e3' := op_bound hu h3 ta
  have e3 := near_trans e3' (add_error e1 e2s)
  have Ta : |T| ≤ 54 / 10 := (abs_near e3').trans (by linarith)
  have Tx : |nx * d + σ * (ny * q)| ≤ 51 / 10 := by
    refine (abs_add_le _ _).trans ?_
    rw [abs_mul σ, hσ, one_mul]
    linarith
  have m4 := prod_error e3 hi
  have k1 := mul_le_mul_of_nonneg_left hi' ((abs_nonneg _).trans e3)
  have k2 := mul_le_mul_of_nonneg_right Tx (show 0 ≤ 8 * u by positivity)
  have Va := abs_mul_le_of Ta hi'
  have e4' := op_bound hu h4 Va
  have e4 := near_trans e4' m4
  have xa := (abs_add_le x0 V).trans (add_le_add hx0 (abs_near e4'))
  have e5 := near_trans (op_bound hu h5 (xa.trans (c := 8) (by linarith))) (add_error (z x0) e4)
  refine e5.trans ?_
  linarith

/-- distance of the line from the centre and discriminant, compared with those of the track and the plane -/
theorem plane_disc {nx ny x0 y0 X0 Y0 r R d0 d D disc n2 : ℝ} (hu : 0 ≤ u) (hu' : u ≤ 1 / 1000000) (hnx : |nx| ≤ 1) (hny : |ny| ≤ 1)
    (hn2 : |n2| ≤ 2) (hr : |r| ≤ 1) (h1 : |x0 - X0| ≤ 3 * u) (h2 : |y0 - Y0| ≤ 3 * u) (h3 : |r - R| ≤ 3 * u) (h4 : |d0 - d| ≤ 3 * u)
    (hD : |D - (d0 - (nx * x0 + ny * y0))| ≤ 9 * u) (hD3 : |d0 - (nx * x0 + ny * y0)| ≤ 3)
    (hdisc : |disc - (r * r * n2 - (d0 - (nx * x0 + ny * y0)) * (d0 - (nx * x0 + ny * y0)))| ≤ 103 * u) :
    |D - (d - (nx * X0 + ny * Y0))| ≤ 18 * u ∧ |d - (nx * X0 + ny * Y0)| ≤ 31 / 10 ∧
    |disc - (R ^ 2 * n2 - (d - (nx * X0 + ny * Y0)) ^ 2)| ≤ 175 * u := by
  obtain ⟨E, hE⟩ : ∃ E, E = d0 - (nx * x0 + ny * y0) := ⟨_, rfl⟩
  obtain ⟨F, hF⟩ : ∃ F, F = d - (nx * X0 + ny * Y0) := ⟨_, rfl⟩
  rw [← hE] at hD hD3 hdisc
  rw [← hF]
  have k1 := abs_mul_le_of hnx h1
  have k2 := abs_mul_le_of hny h2
  have EF : |E - F| ≤ 9 * u := by
    rw [hE, hF, show d0 - (nx * x0 + ny * y0) - (d - (nx * X0 + ny * Y0)) = (d0 - d) - (nx * (x0 - X0) + ny * (y0 - Y0)) by ring]
    refine (abs_sub _ _).trans ?_
    have := abs_add_le (nx * (x0 - X0)) (ny * (y0 - Y0))
    linarith
  have FE : |F - E| ≤ 9 * u := by rwa [abs_sub_comm]
  have F3 : |F| ≤ 31 / 10 := (abs_near FE).trans (by linarith)
  have R1 : |R| ≤ 11 / 10 := by
    have : |R - r| ≤ 3 * u := by rwa [abs_sub_comm]
    exact (abs_near this).trans (by linarith)
  refine ⟨(near_trans hD EF).trans (by linarith), F3, ?_⟩
  have q1 : |E * E - F * F| ≤ 56 * u := by
    rw [show E * E - F * F = (E - F) * (E + F) by ring]
    have := abs_mul_le_of EF ((abs_add_le E F).trans (add_le_add hD3 F3))
    linarith
  have q2 : |r * r * n2 - R * R * n2| ≤ 13 * u := by
    rw [show r * r * n2 - R * R * n2 = (r - R) * (r + R) * n2 by ring]
    have := abs_mul_le_of (abs_mul_le_of h3 ((abs_add_le r R).trans (add_le_add hr R1))) hn2
    linarith
  have := near_trans hdisc (sub_error q2 q1)
  rw [show R ^ 2 * n2 - F ^ 2 = R * R * n2 - F * F by ring]
  linarith

/-- the computed square root -/
theorem plane_root {disc q : ℝ} (hu : 0 ≤ u) (hu' : u ≤ 1 / 1000000) (h0 : 0 ≤ disc) (hd : disc ≤ 9 / 4) (hq : |q - √disc| ≤ u * (|√disc| + 1 / 1000)) :
    |q ^ 2 - disc| ≤ 6 * u ∧ |q| ≤ 2 := by
  have s2 := Real.mul_self_sqrt h0
  have s1 : |√disc| ≤ 3 / 2 := by
    rw [abs_of_nonneg (Real.sqrt_nonneg _)]
    exact (Real.sqrt_le_left (by norm_num)).2 (by norm_num; linarith)
  have e := op_bound hu hq s1
  have q2 : |q| ≤ 16 / 10 := (abs_near e).trans (by linarith)
  refine ⟨?_, by linarith⟩
  rw [show q ^ 2 - disc = (q - √disc) * (q + √disc) by linear_combination s2]
  have := abs_mul_le_of e ((abs_add_le q (√disc)).trans (add_le_add q2 s1))
  nlinarith

/-- both coordinates of a computed crossing: distance from the line, and difference of the squares of the distance from the centre and of the radius -/
theorem plane_near {nx ny x0 y0 X0 Y0 R d D q n2 X Y σ : ℝ} (hu : 0 ≤ u) (hu' : u ≤ 1 / 1000000) (hnx : |nx| ≤ 1) (hny : |ny| ≤ 1)
    (en : n2 = nx ^ 2 + ny ^ 2) (hn2 : 1 ≤ n2) (hR : |R| ≤ 1) (h1 : |x0 - X0| ≤ 3 * u) (h2 : |y0 - Y0| ≤ 3 * u) (hσ : |σ| = 1)
    (hD : |D - (d - (nx * X0 + ny * Y0))| ≤ 18 * u)
    (hq : |q ^ 2 - (R ^ 2 * n2 - (d - (nx * X0 + ny * Y0)) ^ 2)| ≤ 181 * u)
    (hX : |X - (x0 + (nx * D + σ * (ny * q)) * (1 / n2))| ≤ 80 * u)
    (hY : |Y - (y0 + (ny * D + -σ * (nx * q)) * (1 / n2))| ≤ 80 * u) :
    |X - (X0 + (nx * (d - (nx * X0 + ny * Y0)) + σ * (ny * q)) * (1 / n2))| ≤ 101 * u ∧
    |Y - (Y0 + (ny * (d - (nx * X0 + ny * Y0)) + -σ * (nx * q)) * (1 / n2))| ≤ 101 * u ∧
    |nx * X + ny * Y - d| ≤ 202 * u ∧ |(X - X0) ^ 2 + (Y - Y0) ^ 2 - R ^ 2| ≤ 640 * u := by
  obtain ⟨F, hF⟩ : ∃ F, F = d - (nx * X0 + ny * Y0) := ⟨_, rfl⟩
  rw [← hF] at hD hq ⊢
  have n0 : n2 ≠ 0 := by linarith
  have ni : |1 / n2| ≤ 1 := by
    rw [abs_of_pos (by positivity), div_le_one (by linarith)]
    exact hn2
  have s2 : σ ^ 2 = 1 := by rw [← sq_abs, hσ, one_pow]
  obtain ⟨P, hP⟩ : ∃ P, P = (nx * F + σ * (ny * q)) * (1 / n2) := ⟨_, rfl⟩
  obtain ⟨Q, hQ⟩ : ∃ Q, Q = (ny * F + -σ * (nx * q)) * (1 / n2) := ⟨_, rfl⟩
  rw [← hP, ← hQ]
  have a1 : |X - (X0 + P)| ≤ 101 * u := by
    have k := abs_mul_le_of (abs_mul_le_of hnx hD) ni
    have e : x0 + (nx * D + σ * (ny * q)) * (1 / n2) - (X0 + P) = (x0 - X0) + nx * (D - F) * (1 / n2) := by rw [hP]; ring
    have k2 : |x0 + (nx * D + σ * (ny * q)) * (1 / n2) - (X0 + P)| ≤ 21 * u := by
      rw [e]
      refine (abs_add_le _ _).trans ?_
      linarith
    have := near_trans hX k2
    linarith
  have a2 : |Y - (Y0 + Q)| ≤ 101 * u := by
    have k := abs_mul_le_of (abs_mul_le_of hny hD) ni
    have e : y0 + (ny * D + -σ * (nx * q)) * (1 / n2) - (Y0 + Q) = (y0 - Y0) + ny * (D - F) * (1 / n2) := by rw [hQ]; ring
    have k2 : |y0 + (ny * D + -σ * (nx * q)) * (1 / n2) - (Y0 + Q)| ≤ 21 * u := by
      rw [e]
      refine (abs_add_le _ _).trans ?_
      linarith
    have := near_trans hY k2
    linarith
  have l1 : nx * P + ny * Q = F := by
    rw [hP, hQ]
    field_simp
    rw [en]
    ring
  have l2 : P ^ 2 + Q ^ 2 = (F ^ 2 + q ^ 2) * (1 / n2) := by
    rw [hP, hQ]
    field_simp
    rw [en]
    linear_combination (nx ^ 2 + ny ^ 2) * q ^ 2 * s2
  have l3 : |P ^ 2 + Q ^ 2 - R ^ 2| ≤ 181 * u := by
    rw [l2, show (F ^ 2 + q ^ 2) * (1 / n2) - R ^ 2 = (q ^ 2 - (R ^ 2 * n2 - F ^ 2)) * (1 / n2) by field_simp; ring]
    have := abs_mul_le_of hq ni
    linarith
  have R2 : R ^ 2 ≤ 1 := by
    rw [← sq_abs]
    exact pow_le_one₀ (abs_nonneg R) hR
  have l4 := (abs_le.1 l3).2
  have PQ : P ^ 2 + Q ^ 2 ≤ (101 / 100) ^ 2 := by linarith
  have Pb : |P| ≤ 101 / 100 := abs_le_of_sq_le_sq (by linarith [sq_nonneg Q]) (by norm_num)
  have Qb : |Q| ≤ 101 / 100 := abs_le_of_sq_le_sq (by linarith [sq_nonneg P]) (by norm_num)
  obtain ⟨α, hα⟩ : ∃ α, α = X - (X0 + P) := ⟨_, rfl⟩
  obtain ⟨β, hβ⟩ : ∃ β, β = Y - (Y0 + Q) := ⟨_, rfl⟩
  have eX : X - X0 = P + α := by rw [hα]; ring
  have eY : Y - Y0 = Q + β := by rw [hβ]; ring
  rw [← hα] at a1
  rw [← hβ] at a2
  refine ⟨by rwa [hα] at a1, by rwa [hβ] at a2, ?_, ?_⟩
  · have e : nx * X + ny * Y - d = nx * α + ny * β := by
      linear_combination nx * eX + ny * eY + l1 + hF
    rw [e]
    have := abs_add_le (nx * α) (ny * β)
    have := abs_mul_le_of hnx a1
    have := abs_mul_le_of hny a2
    linarith
  · rw [eX, eY, show (P + α) ^ 2 + (Q + β) ^ 2 - R ^ 2 = (P ^ 2 + Q ^ 2 - R ^ 2) + α * (2 * P + α) + β * (2 * Q + β) by ring]
    have b : ∀ {p γ : ℝ}, |p| ≤ 101 / 100 → |γ| ≤ 101 * u → |γ * (2 * p + γ)| ≤ 101 * u * (203 / 100) := fun {p γ} hp hγ => by
      refine abs_mul_le_of hγ ((abs_add_le _ _).trans ?_)
      rw [abs_mul, abs_two]
      linarith
    have b1 := b Pb a1
    have b2 := b Qb a2
    have := abs_add_le (P ^ 2 + Q ^ 2 - R ^ 2 + α * (2 * P + α)) (β * (2 * Q + β))
    have := abs_add_le (P ^ 2 + Q ^ 2 - R ^ 2) (α * (2 * P + α))
    linarith

end

end Verif
