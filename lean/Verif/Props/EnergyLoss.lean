import Verif.Props.GblExample

/-!
# C78: change of the track parameters by the energy loss
-/

open Classical

noncomputable section

namespace Verif

open Dbl Traj

/-- magnitude of the momentum of a track with curvature `om` and slope `tl` in a field `B` -/
def momentumOf (om tl B : ℝ) : ℝ := |B| * 0.299792458e-2 / |om| * Real.sqrt (1 + tl ^ 2)

theorem momentumAtPCA_r {field : V3 → V3} {rp : V3} {om tl ph d z B bx by' : ℝ} (ho : om ≠ 0) (hB : field rp = V3.re bx by' B) :
    (momentumAtPCA field (hpR om tl ph d z) rp).r = fin (momentumOf om tl B) := by
  unfold momentumAtPCA
  simp only [calculatePhi0_hpR, calculateOmega_hpR, calculateTanLambda_hpR, hB, V3.re, one_eq, fin_div _ ho, abs_fin,
    convertBr2P_cm, fin_mul, cos_fin, sin_fin, V3.r, fin_add]
  set q := |1 / om| * B * (0.299792458 * (1 / 100))
  have e : q * Real.cos ph * (q * Real.cos ph) + q * Real.sin ph * (q * Real.sin ph) + q * tl * (q * tl) = q ^ 2 * (1 + tl ^ 2) := by
    have := Real.sin_sq_add_cos_sq ph
    linear_combination q ^ 2 * this
  rw [e, sqrt_fin (by positivity), Real.sqrt_mul (sq_nonneg _), Real.sqrt_sq_eq_abs]
  unfold momentumOf
  congr 2
  simp only [q, abs_mul, abs_abs, abs_div, abs_one]
  rw [abs_of_pos (show (0 : ℝ) < 0.299792458 by norm_num), abs_of_pos (show (0 : ℝ) < 100 by norm_num)]
  ring

theorem momentumOf_pos {om tl B : ℝ} (ho : om ≠ 0) (hB : B ≠ 0) : 0 < momentumOf om tl B := by
  unfold momentumOf
  have := abs_pos.mpr ho
  have := abs_pos.mpr hB
  have : 0 < Real.sqrt (1 + tl ^ 2) := Real.sqrt_pos.mpr (by positivity)
  positivity

/-- energy of a particle of mass `m` -/
def energyOf (p m : ℝ) : ℝ := Real.sqrt (p ^ 2 + m ^ 2)

section

variable {surface : Surface} {uv : V2} {field : V3 → V3} {rp : V3} {om tl ph d z B bx by' m Δ : ℝ}

/-- the parameters after a finite loss that is not the full energy: only the curvature changes -/
theorem lossHp_re (ho : om ≠ 0) (hB0 : B ≠ 0) (hB : field rp = V3.re bx by' B)
    (hΔ : (computeEnergyLoss surface uv (momentumAtPCA field (hpR om tl ph d z) rp) (fin m)).deltaE = fin Δ)
    (hne : Δ ≠ energyOf (momentumOf om tl B) m) :
    lossHp surface uv (momentumAtPCA field (hpR om tl ph d z) rp) (fin m) (hpR om tl ph d z) =
      hpR (om / (1 - Δ / energyOf (momentumOf om tl B) m)) tl ph d z := by
  have hp := momentumOf_pos (tl := tl) ho hB0
  unfold lossHp
  rw [hΔ, momentumAtPCA_r ho hB]
  have hE : 0 < energyOf (momentumOf om tl B) m := Real.sqrt_pos.mpr (by positivity)
  have e : Dbl.sqrt (fin (momentumOf om tl B) * fin (momentumOf om tl B) + fin m * fin m) = fin (energyOf (momentumOf om tl B) m) := by
    rw [fin_mul, fin_mul, fin_add, sqrt_fin (add_nonneg (mul_self_nonneg _) (mul_self_nonneg _))]
    unfold energyOf
    rw [sq, sq]
  rw [e, fin_div _ hE.ne', one_eq, fin_sub]
  have h1 : 1 - Δ / energyOf (momentumOf om tl B) m ≠ 0 := by
    intro h
    have : Δ / energyOf (momentumOf om tl B) m = 1 := by linarith
    exact hne ((div_eq_one_iff_eq hE.ne').mp this)
  funext i
  by_cases hi : i = OMEGA
  · subst hi
    simp only [V5.set, if_true]
    show fin om / fin _ = fin _
    rw [fin_div _ h1]
  · simp only [V5.set, hi, if_false]
    fin_cases i
    · exact absurd rfl hi
    all_goals rfl

/-- C78 (partial): if the loss is not negative and less than the energy, the particle keeps its charge, and its energy afterwards
is at least the energy before minus the loss and at most the energy before.  Missing: equality (`C78_energy_false`), larger
losses (`C78_charge_false`). -/
theorem C78_bounds_partial (ho : om ≠ 0) (hB0 : B ≠ 0) (hB : field rp = V3.re bx by' B)
    (hΔ : (computeEnergyLoss surface uv (momentumAtPCA field (hpR om tl ph d z) rp) (fin m)).deltaE = fin Δ)
    (h0 : 0 ≤ Δ) (hlt : Δ < energyOf (momentumOf om tl B) m) :
    ∃ om', lossHp surface uv (momentumAtPCA field (hpR om tl ph d z) rp) (fin m) (hpR om tl ph d z) = hpR om' tl ph d z ∧
      0 < om * om' ∧
      energyOf (momentumOf om tl B) m - Δ ≤ energyOf (momentumOf om' tl B) m ∧
      energyOf (momentumOf om' tl B) m ≤ energyOf (momentumOf om tl B) m ∧
      (energyOf (momentumOf om' tl B) m = energyOf (momentumOf om tl B) m - Δ ↔ Δ = 0 ∨ m = 0) := by
  refine ⟨_, lossHp_re ho hB0 hB hΔ hlt.ne, ?_⟩
  have hp := momentumOf_pos (tl := tl) ho hB0
  have hE : 0 < energyOf (momentumOf om tl B) m := Real.sqrt_pos.mpr (by positivity)
  have hEE : energyOf (momentumOf om tl B) m ^ 2 = momentumOf om tl B ^ 2 + m ^ 2 := Real.sq_sqrt (by positivity)
  generalize hEd : energyOf (momentumOf om tl B) m = E at *
  set r := 1 - Δ / E with hr
  have hΔr : Δ = E * (1 - r) := by rw [hr]; field_simp; ring
  have hr0 : 0 < r := by rw [hr, sub_pos, div_lt_one hE]; exact hlt
  have hr1 : r ≤ 1 := by rw [hr]; have := div_nonneg h0 hE.le; linarith
  have hp' : momentumOf (om / r) tl B = momentumOf om tl B * r := by
    unfold momentumOf
    rw [abs_div, abs_of_pos hr0]
    have := abs_pos.mpr ho
    field_simp
  rw [hp']
  generalize momentumOf om tl B = p at *
  have hE' : energyOf (p * r) m = Real.sqrt ((p * r) ^ 2 + m ^ 2) := rfl
  have hsub : E - Δ = E * r := by rw [hΔr]; ring
  have hsq : (E * r) ^ 2 + m ^ 2 * (1 - r ^ 2) = (p * r) ^ 2 + m ^ 2 := by rw [mul_pow, hEE]; ring
  have hr2 : 0 ≤ 1 - r ^ 2 := by nlinarith
  refine ⟨?_, ?_, ?_, ?_⟩
  · rw [mul_div_assoc', lt_div_iff₀ hr0, zero_mul]
    exact mul_self_pos.mpr ho
  · rw [hsub, hE']
    refine Real.le_sqrt_of_sq_le ?_
    rw [← hsq]
    nlinarith [mul_nonneg (sq_nonneg m) hr2]
  · rw [hE', ← Real.sqrt_sq hE.le]
    refine Real.sqrt_le_sqrt ?_
    rw [hEE]
    nlinarith [mul_nonneg (sq_nonneg p) hr2]
  · rw [hsub, hE', Real.sqrt_eq_iff_mul_self_eq (by positivity) (by positivity), ← sq, ← hsq]
    constructor
    · intro h
      have : m ^ 2 * (1 - r ^ 2) = 0 := by linarith
      rcases mul_eq_zero.mp this with h | h
      · exact Or.inr (by simpa using h)
      · left
        have : r = 1 := by nlinarith
        rw [hΔr, this]; ring
    · rintro (h | h)
      · have : r = 1 := by rw [hr, h]; simp
        rw [this]; ring
      · rw [h]; ring

/-- C78 is false for every massive particle that loses energy: afterwards it has more energy than the energy before minus the
loss (the momentum is scaled instead of the energy reduced). -/
theorem C78_energy_false (ho : om ≠ 0) (hB0 : B ≠ 0) (hB : field rp = V3.re bx by' B)
    (hΔ : (computeEnergyLoss surface uv (momentumAtPCA field (hpR om tl ph d z) rp) (fin m)).deltaE = fin Δ)
    (hm : 0 < m) (h0 : 0 < Δ) (hlt : Δ < energyOf (momentumOf om tl B) m) :
    ∃ om', lossHp surface uv (momentumAtPCA field (hpR om tl ph d z) rp) (fin m) (hpR om tl ph d z) = hpR om' tl ph d z ∧
      energyOf (momentumOf om tl B) m - Δ < energyOf (momentumOf om' tl B) m := by
  obtain ⟨om', h1, -, h3, -, h5⟩ := C78_bounds_partial ho hB0 hB hΔ h0.le hlt
  refine ⟨om', h1, lt_of_le_of_ne h3 fun h => ?_⟩
  rcases h5.mp h.symm with h | h
  · exact h0.ne' h
  · exact hm.ne' h

/-- C78: a loss greater than the energy reverses the charge. -/
theorem C78_stopped (ho : om ≠ 0) (hB0 : B ≠ 0) (hB : field rp = V3.re bx by' B)
    (hΔ : (computeEnergyLoss surface uv (momentumAtPCA field (hpR om tl ph d z) rp) (fin m)).deltaE = fin Δ)
    (hgt : energyOf (momentumOf om tl B) m < Δ) :
    ∃ om', lossHp surface uv (momentumAtPCA field (hpR om tl ph d z) rp) (fin m) (hpR om tl ph d z) = hpR om' tl ph d z ∧
      om * om' < 0 := by
  refine ⟨_, lossHp_re ho hB0 hB hΔ hgt.ne', ?_⟩
  have hp := momentumOf_pos (tl := tl) ho hB0
  have hE : 0 < energyOf (momentumOf om tl B) m := Real.sqrt_pos.mpr (by positivity)
  have : 1 - Δ / energyOf (momentumOf om tl B) m < 0 := by
    rw [sub_neg, one_lt_div hE]; exact hgt
  rw [mul_div_assoc']
  exact div_neg_of_pos_of_neg (mul_self_pos.mpr ho) this

end

/-- the surface of a call -/
def surfaceOf : AddOp → Option Surface
  | .measurement _ _ s _ _ => some s
  | .scatterer s => some s
  | .setMass _ => none

/-- C78: `lossHp` is what is applied by the public functions: the new element has the parameters of the previous one, moved to
the crossing with the surface and changed by the loss in the surface. -/
theorem C78_elements {env : Env} {t : Traj} {op : AddOp} {surf : Surface} (hop : surfaceOf op = some surf)
    (h : (t.step env op).2 = .ok true) :
    ∃ (back e : Element) (cb : Bool) (hit : Hit) (uv : V2) (tp : TP) (w : Dbl), t.withStart.elems.getLast? = some back ∧
      (t.step env op).1.elems = t.withStart.elems ++ [e] ∧
      intersectWithSurface surf back.tp.hp back.tp.rp 0 V3.zero 1 cb = .ok hit ∧ hit.found = true ∧
      moveHelixTo back.tp hit.xx false = .ok (tp, w) ∧
      e.tp.rp = tp.rp ∧ e.tp.hp = lossHp surf uv (momentumAtPCA env.globalField tp.hp tp.rp) t.mass tp.hp := by
  cases op with
  | measurement pos prec s id sc =>
    injection hop with hop
    subst hop
    obtain ⟨back, e, h1, h2, h3⟩ := measurement_step h
    obtain ⟨hit, tp, w, proj, r1, r2, r3, r4, rfl⟩ := measurement_ok h3
    exact ⟨back, _, _, hit, _, tp, w, h1, h2, r1, r2, r3, rfl, rfl⟩
  | scatterer s =>
    injection hop with hop
    subst hop
    obtain ⟨back, e, h1, h2, h3⟩ := scatterer_step h
    obtain ⟨hit, tp, w, proj, r1, r2, r3, r4, rfl⟩ := scatterer_ok h3
    exact ⟨back, _, _, hit, _, tp, w, h1, h2, r1, r2, r3, rfl, rfl⟩
  | setMass m => cases hop

open Example in
/-- C78 is false, witness: adding a measurement on a disk of some thickness turns the positive curvature into a negative one. -/
theorem C78_charge_false (pos : V3) (prec : List Dbl) (id : ℕ) (sc : Bool) : ∃ (th : ℝ) (e : Element) (om : ℝ),
    (make tp).step env (.measurement pos prec (diskT th) id sc) =
      ({ (make tp).withStart with elems := (make tp).withStart.elems ++ [e] }, .ok true) ∧
    tp.hp OMEGA = fin 1 ∧ e.tp.hp OMEGA = fin om ∧ om < 0 := by
  obtain ⟨c, fn, hc0, -, hc⟩ := added_at pos prec id sc
  have hct : 1 - c * (2 / c) = -1 := by field_simp; norm_num
  obtain ⟨e, he, hp⟩ := hc (2 / c) (by rw [hct]; norm_num)
  refine ⟨2 / c, e, 1 / (1 - c * (2 / c)), he, rfl, by rw [hp]; rfl, ?_⟩
  rw [hct]; norm_num

end Verif
