import Verif.Props.Matter
import Verif.Props.TrajectoryExample

/-!
# C85: surfaces of vacuum
-/

open Classical

noncomputable section

namespace Verif

open Dbl Traj

variable {Z A rad m p : ℝ}

/-- the logarithm of the excitation energy over a plasma energy of zero -/
theorem vacuum_C0 {I : ℝ} (hI : 0 < I) : -(2 * Dbl.log (fin I / fin 0) + 1) = inf true := by
  have h1 : fin I / fin 0 = inf false := by
    rw [fin_div_zero hI.ne']
    simp [sgn, hI.le]
  rw [h1, show Dbl.log (inf false) = inf false from rfl, ofNat_eq, fin_mul_inf, if_neg (by norm_num)]
  simp [sgn, one_eq]

/-- the density correction of vacuum -/
theorem vacuum_del {x : ℝ} (hx : 0 ≤ x) : densityCorrection (fin x) (inf true) = nan ∨ densityCorrection (fin x) (inf true) = inf true := by
  unfold densityCorrection
  simp only [ofNat_eq, zero_eq, fin_le, fin_lt, ofSci_eq, fin_mul, fin_sub]
  by_cases h3 : (3 : ℝ) ≤ x
  · rw [cif_pos h3]
    exact Or.inr rfl
  · rw [cif_neg h3, cif_pos ⟨hx, not_le.mp h3⟩, pow_fin _ (by linarith)]
    left
    have h : -(inf true) / fin 27 = inf false := by
      show inf (xor false (sgn 27)) = inf false
      simp [sgn]
    have hp : (0 : ℝ) < (3 - x) ^ (3 : ℝ) := Real.rpow_pos_of_pos (by linarith) _
    rw [h, inf_mul_fin, if_neg hp.ne']
    simp only [sgn, hp.not_gt, decide_false, Bool.xor_false]
    rfl

/-- the specific energy loss of a fast particle in vacuum times the density -/
theorem vacuum_fast (hZ : 0 < Z) (hA : 0 < A) (hm : 0 < m) (hp : m ≤ p) :
    computeBetheBloch ⟨fin Z, fin A, fin 0, fin rad⟩ (fin p) (fin m) * fin 0 = nan := by
  have hp0 : 0 < p := by linarith
  set I := (9.76 * Z + 58.8 * Z ^ (-0.19 : ℝ)) * 1e-9 with hIdef
  have hI : 0 < I := mul_pos (add_pos (mul_pos (by norm_num) hZ) (mul_pos (by norm_num) (Real.rpow_pos_of_pos hZ _))) (by norm_num)
  set bg2 := p * p / (m * m) with hbdef
  have hb : 0 < bg2 := div_pos (mul_pos hp0 hp0) (mul_pos hm hm)
  have hb1 : 1 ≤ bg2 := (one_le_div (mul_pos hm hm)).mpr (by nlinarith)
  have hg : 0 < 1 + bg2 := by linarith
  have hden : 0 < 1 + 0.510998902e-3 / m * (2 * Real.sqrt (1 + bg2) + 0.510998902e-3 / m) := by
    have : 0 < 0.510998902e-3 / m := div_pos (by norm_num) hm
    have := Real.sqrt_nonneg (1 + bg2)
    positivity
  have hl : Real.log 10 ≠ 0 := (Real.log_pos (by norm_num)).ne'
  have hx : 0 ≤ Real.log (Real.sqrt bg2) / Real.log 10 :=
    div_nonneg (Real.log_nonneg (Real.one_le_sqrt.mpr hb1)) (Real.log_nonneg (by norm_num))
  have eI : excitationEnergy (fin Z) = fin I := by
    simp only [excitationEnergy, ofSci_eq, fin_neg, pow_fin _ hZ, fin_mul, fin_add, hIdef]
  unfold computeBetheBloch
  have hq : Dbl.sqrt (fin 0) = fin 0 := by rw [sqrt_fin le_rfl, Real.sqrt_zero]
  simp only [eI, fin_mul, fin_div _ (mul_pos hm hm).ne', fin_div _ hA.ne', ofSci_eq, hq, mul_zero, zero_mul, zero_div, fin_div _ hm.ne']
  rw [← hbdef, vacuum_C0 hI]
  simp only [one_eq, ofNat_eq, fin_add, sqrt_fin hb.le, sqrt_fin hg.le, fin_mul, dlog10,
    log_fin (Real.sqrt_pos.mpr hb), fin_div _ hl, fin_div _ hden.ne', fin_div _ (mul_pos hI hI).ne', fin_div _ hg.ne',
    fin_div _ hb.ne']
  rcases vacuum_del hx with h | h
  · rw [h, sub_nan, mul_nan, nan_mul]
  · rw [h]
    have ht : 0 < 2 * 0.510998902e-3 * bg2 / (1 + 0.510998902e-3 / m * (2 * Real.sqrt (1 + bg2) + 0.510998902e-3 / m)) :=
      div_pos (mul_pos (by norm_num) hb) hden
    rw [log_fin (div_pos (mul_pos (mul_pos (by norm_num) hb) ht) (mul_pos hI hI)), fin_mul, fin_sub]
    have hk : 0 < 0.307075e-3 * Z / A * (1 + bg2) / bg2 := by positivity
    have : ∀ a b : ℝ, 0 < a → fin a * (fin b - inf true) * fin 0 = nan := by
      intro a b ha
      show fin a * inf false * fin 0 = nan
      rw [fin_mul_inf, if_neg ha.ne', inf_mul_zero]
    exact this _ _ hk

/-- C85 is false for fast particles: a surface whose inner layer is vacuum has an undefined energy loss, whatever the outer
layer and the thicknesses are. -/
theorem C85_fast {s : Surface} {uv : V2} {px py pz : ℝ} (hm : 0 < m) (hZ : 0 < Z) (hA : 0 < A)
    (hs : s.innerMaterial = ⟨fin Z, fin A, fin 0, fin rad⟩) (hfast : m ^ 2 ≤ px ^ 2 + py ^ 2 + pz ^ 2) :
    (computeEnergyLoss s uv (V3.re px py pz) (fin m)).deltaE = nan := by
  unfold computeEnergyLoss
  have hv := vacuum_fast (rad := rad) (p := Real.sqrt (px ^ 2 + py ^ 2 + pz ^ 2)) hZ hA hm (Real.le_sqrt_of_sq_le hfast)
  simp only [hs, momentum_r, hv, nan_mul, nan_add]

/-- C85: the scatterer added for such a surface has an undefined curvature (`Example.vacuum_scatterer` is a concrete case). -/
theorem C85_track_false {env : Env} {back e : Element} {s : Surface} (hm : 0 < m) (hZ : 0 < Z) (hA : 0 < A)
    (hs : s.innerMaterial = ⟨fin Z, fin A, fin 0, fin rad⟩)
    (hfast : ∀ hit tp w, intersectWithSurface s back.tp.hp back.tp.rp 0 V3.zero 1 true = .ok hit →
      moveHelixTo back.tp hit.xx false = .ok (tp, w) →
      ∃ px py pz : ℝ, momentumAtPCA env.globalField tp.hp tp.rp = V3.re px py pz ∧ m ^ 2 ≤ px ^ 2 + py ^ 2 + pz ^ 2)
    (h : scattererElement env (fin m) back s = .ok (some e)) : e.tp.hp OMEGA = nan := by
  obtain ⟨hit, tp, w, proj, h1, h2, h3, h4⟩ := scatterer_ok h
  obtain ⟨px, py, pz, hp, hf⟩ := hfast hit tp w h1 h3
  simp only at h4
  rw [h4.2]
  show lossHp s _ _ (fin m) tp.hp OMEGA = nan
  unfold lossHp
  rw [hp, C85_fast hm hZ hA hs hf]
  simp [V5.set]

/-- C85: for slow particles (momentum below the mass) vacuum causes no energy loss. -/
theorem C85_slow_partial {s : Surface} {uv : V2} {px py pz nx ny nz ti tO Zo Ao rado : ℝ} (hm : 0 < m) (hZ : 0 < Z) (hA : 0 < A)
    (hZo : 0 < Zo) (hAo : 0 < Ao)
    (hs : s.innerMaterial = ⟨fin Z, fin A, fin 0, fin rad⟩) (hso : s.outerMaterial = ⟨fin Zo, fin Ao, fin 0, fin rado⟩)
    (hn : s.normal (s.localToGlobal uv) = V3.re nx ny nz) (hti : s.innerThickness = fin ti) (hto : s.outerThickness = fin tO)
    (hp : 0 < px ^ 2 + py ^ 2 + pz ^ 2) (hc : px * nx + py * ny + pz * nz ≠ 0)
    (hslow : px ^ 2 + py ^ 2 + pz ^ 2 < m ^ 2) :
    (computeEnergyLoss s uv (V3.re px py pz) (fin m)).deltaE = 0 := by
  have hsl : ∀ {Z A rad : ℝ}, 0 < Z → 0 < A → ∃ b : ℝ, computeBetheBloch ⟨fin Z, fin A, fin 0, fin rad⟩
      (fin (Real.sqrt (px ^ 2 + py ^ 2 + pz ^ 2))) (fin m) = fin b := by
    intro Z A rad hZ hA
    have hp' := Real.sqrt_pos.mpr hp
    have hlt : Real.sqrt (px ^ 2 + py ^ 2 + pz ^ 2) < m := (Real.sqrt_lt' hm).mpr hslow
    generalize Real.sqrt (px ^ 2 + py ^ 2 + pz ^ 2) = p at *
    set I := (9.76 * Z + 58.8 * Z ^ (-0.19 : ℝ)) * 1e-9 with hIdef
    have hI : 0 < I :=
      mul_pos (add_pos (mul_pos (by norm_num) hZ) (mul_pos (by norm_num) (Real.rpow_pos_of_pos hZ _))) (by norm_num)
    set bg2 := p * p / (m * m) with hbdef
    have hb : 0 < bg2 := div_pos (mul_pos hp' hp') (mul_pos hm hm)
    have hb1 : bg2 < 1 := (div_lt_one (mul_pos hm hm)).mpr (by nlinarith)
    have hg : 0 < 1 + bg2 := by linarith
    have hden : 0 < 1 + 0.510998902e-3 / m * (2 * Real.sqrt (1 + bg2) + 0.510998902e-3 / m) := by
      have : 0 < 0.510998902e-3 / m := div_pos (by norm_num) hm
      have := Real.sqrt_nonneg (1 + bg2)
      positivity
    have hl : Real.log 10 ≠ 0 := (Real.log_pos (by norm_num)).ne'
    have hx : Real.log (Real.sqrt bg2) / Real.log 10 < 0 := by
      apply div_neg_of_neg_of_pos _ (Real.log_pos (by norm_num))
      exact Real.log_neg (Real.sqrt_pos.mpr hb) (by rw [Real.sqrt_lt' one_pos]; linarith)
    have eI : excitationEnergy (fin Z) = fin I := by
      simp only [excitationEnergy, ofSci_eq, fin_neg, pow_fin _ hZ, fin_mul, fin_add, hIdef]
    unfold computeBetheBloch
    have hq : Dbl.sqrt (fin 0) = fin 0 := by rw [sqrt_fin le_rfl, Real.sqrt_zero]
    simp only [eI, fin_mul, fin_div _ (mul_pos hm hm).ne', fin_div _ hA.ne', ofSci_eq, hq, mul_zero, zero_mul, zero_div, fin_div _ hm.ne']
    rw [← hbdef, vacuum_C0 hI]
    simp only [one_eq, ofNat_eq, fin_add, sqrt_fin hb.le, sqrt_fin hg.le, fin_mul, dlog10,
      log_fin (Real.sqrt_pos.mpr hb), fin_div _ hl, fin_div _ hden.ne', fin_div _ (mul_pos hI hI).ne', fin_div _ hg.ne',
      fin_div _ hb.ne']
    have hd : densityCorrection (fin (Real.log (Real.sqrt bg2) / Real.log 10)) (inf true) = fin 0 := by
      unfold densityCorrection
      simp only [ofNat_eq, zero_eq, fin_le, fin_lt]
      rw [cif_neg (by linarith), cif_neg (by rintro ⟨h, -⟩; linarith)]
    have ht : 0 < 2 * 0.510998902e-3 * bg2 / (1 + 0.510998902e-3 / m * (2 * Real.sqrt (1 + bg2) + 0.510998902e-3 / m)) :=
      div_pos (mul_pos (by norm_num) hb) hden
    rw [hd, log_fin (div_pos (mul_pos (mul_pos (by norm_num) hb) ht) (mul_pos hI hI)), fin_mul, fin_sub, fin_sub, fin_mul]
    exact ⟨_, rfl⟩
  obtain ⟨bi, hbi⟩ := hsl (rad := rad) hZ hA
  obtain ⟨bo, hbo⟩ := hsl (rad := rado) hZo hAo
  have := C77_sum (s := s) (uv := uv) (m := m) (di := bi) (dO := bo) (ri := 0) (ro := 0) hn hti hto (by rw [hs]) (by rw [hso])
    (by rw [hs]; exact hbi) (by rw [hso]; exact hbo) hp hc
  rw [this, zero_eq]
  simp

/-- vacuum: density zero -/
def Example.vacuum : Material := ⟨fin 1, fin 1, fin 0, fin 1⟩

/-- the disk of the example, of vacuum -/
def Example.vacDisk : Surface :=
  { Example.disk with innerMaterial := Example.vacuum, outerMaterial := Example.vacuum, innerThickness := fin 1, outerThickness := fin 2 }

/-- C85 is false: a disk of vacuum and a particle of 1 GeV across it. -/
theorem C85_false : ∃ (s : Surface) (uv : V2), s.innerMaterial.density = fin 0 ∧ s.outerMaterial.density = fin 0 ∧
    (computeEnergyLoss s uv (V3.re 0 0 1) pionMass).deltaE ≠ 0 := by
  refine ⟨Example.vacDisk, ⟨0, 0⟩, rfl, rfl, ?_⟩
  have := C85_fast (m := 0.13957018) (Z := 1) (A := 1) (rad := 1) (px := 0) (py := 0) (pz := 1) (uv := ⟨0, 0⟩)
    (s := Example.vacDisk) (by norm_num) one_pos one_pos rfl (by norm_num)
  show (computeEnergyLoss _ _ _ (fin 0.13957018)).deltaE ≠ 0
  rw [this]
  simp [zero_eq]

/-- non-trivial case for `C85_slow_partial` -/
example : (computeEnergyLoss Example.vacDisk ⟨0, 0⟩ (V3.re 0 0 0.1) (fin 0.13957018)).deltaE = 0 :=
  C85_slow_partial (Z := 1) (A := 1) (rad := 1) (Zo := 1) (Ao := 1) (rado := 1) (nx := 0) (ny := 0) (nz := 1) (ti := 1) (tO := 2)
    (by norm_num) one_pos one_pos one_pos one_pos rfl rfl rfl rfl rfl (by norm_num) (by norm_num) (by norm_num)

end Verif
