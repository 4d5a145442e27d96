import Verif.Model.Refit
import Verif.Lemmas.Helix
import Mathlib.Tactic.LinearCombination
import Mathlib.Tactic.Positivity
import Mathlib.Tactic.FieldSimp

/-!
# C101, C102: precisions of hits and choice of hits in `lcio_tracks`
-/

open Classical

noncomputable section

namespace Verif

open Dbl Refit

/-! ## C101 -/

/-- variance along the direction (x, y) in the transverse plane, for the covariance matrix c0 c1 c2 (lower triangle) -/
def varianceAlong (c0 c1 c2 x y : ℝ) : ℝ := x ^ 2 * c0 + 2 * x * y * c1 + y ^ 2 * c2

/-- C101: precisions of a hit with errors a and b (in mm) in the measurement directions: inverse squares, in cm. -/
theorem C101_planar {h : TrkHit} {a b : ℝ} (hp : h.planar = some (fin a, fin b)) (ha : a ≠ 0) (hb : b ≠ 0) (oneD : Bool) :
    ∃ p q : ℝ, getHitInfo h oneD = .ok (⟨h.pos.x * fin (1 / 10), h.pos.y * fin (1 / 10), h.pos.z * fin (1 / 10)⟩, [fin p, fin q]) ∧
      0 < p ∧ p * (a / 10) ^ 2 = 1 ∧ (oneD = true → q = 0) ∧ (oneD = false → 0 < q ∧ q * (b / 10) ^ 2 = 1) := by
  have ha' : a * (1 / 10) * (a * (1 / 10)) ≠ 0 := by simp [ha]
  have hb' : b * (1 / 10) * (b * (1 / 10)) ≠ 0 := by simp [hb]
  refine ⟨1 / (a * (1 / 10) * (a * (1 / 10))), if oneD then 0 else 1 / (b * (1 / 10) * (b * (1 / 10))), ?_, ?_, ?_, ?_, ?_⟩
  · unfold getHitInfo resolution
    simp only [hp, Out.ok_bind, Out.pure_eq, unit_mm, fin_mul, one_eq, fin_div _ ha', fin_div _ hb', scaled, zero_eq]
    cases oneD <;> rfl
  · have := mul_self_pos.mpr (show a * (1 / 10) ≠ 0 by simp [ha])
    positivity
  · field_simp
  · rintro rfl; rfl
  · rintro rfl
    have := mul_self_pos.mpr (show b * (1 / 10) ≠ 0 by simp [hb])
    refine ⟨?_, ?_⟩
    · rw [if_neg (by simp)]; positivity
    · rw [if_neg (by simp)]; field_simp

/-- C101 (partial): precisions of a hit with a covariance matrix.  For every azimuth φ the first one is the inverse of the sum
of the variances in azimuthal and in radial direction. Missing: the radial part should not count (`C101_radial_false`). -/
theorem C101_covariance_partial {h : TrkHit} {c0 c1 c2 c3 c4 c5 : ℝ} {rest : List Dbl} (hp : h.planar = none)
    (hc : h.cov = fin c0 :: fin c1 :: fin c2 :: fin c3 :: fin c4 :: fin c5 :: rest) (hr : 0 < c0 + c2) (h5 : 0 < c5) (oneD : Bool) (ph : ℝ) :
    ∃ p q : ℝ, getHitInfo h oneD = .ok (⟨h.pos.x * fin (1 / 10), h.pos.y * fin (1 / 10), h.pos.z * fin (1 / 10)⟩, [fin p, fin q]) ∧
      0 < p ∧ p * ((varianceAlong c0 c1 c2 (-Real.sin ph) (Real.cos ph) + varianceAlong c0 c1 c2 (Real.cos ph) (Real.sin ph)) / 100) = 1 ∧
      (oneD = true → q = 0) ∧ (oneD = false → 0 < q ∧ q * (c5 / 100) = 1) := by
  have htr : varianceAlong c0 c1 c2 (-Real.sin ph) (Real.cos ph) + varianceAlong c0 c1 c2 (Real.cos ph) (Real.sin ph) = c0 + c2 := by
    unfold varianceAlong
    linear_combination (c0 + c2) * Real.sin_sq_add_cos_sq ph
  have e1 : Real.sqrt (c0 + c2) * (1 / 10) * (Real.sqrt (c0 + c2) * (1 / 10)) = (c0 + c2) / 100 := by
    have := Real.mul_self_sqrt hr.le
    linear_combination this / 100
  have e2 : Real.sqrt c5 * (1 / 10) * (Real.sqrt c5 * (1 / 10)) = c5 / 100 := by
    have := Real.mul_self_sqrt h5.le
    linear_combination this / 100
  have n1 : (c0 + c2) / 100 ≠ 0 := by positivity
  have n2 : c5 / 100 ≠ 0 := by positivity
  refine ⟨1 / ((c0 + c2) / 100), if oneD then 0 else 1 / (c5 / 100), ?_, by positivity, ?_, ?_, ?_⟩
  · unfold getHitInfo resolution
    rw [hp]
    simp only [hc, List.getElem?_cons_zero, List.getElem?_cons_succ, Out.ok_bind, Out.pure_eq, unit_mm, fin_add, sqrt_fin hr.le,
      sqrt_fin h5.le, fin_mul, e1, e2, one_eq, fin_div _ n1, fin_div _ n2, scaled, zero_eq]
    cases oneD <;> rfl
  · rw [htr]; field_simp
  · rintro rfl; rfl
  · rintro rfl
    rw [if_neg (by simp)]
    exact ⟨by positivity, by field_simp⟩

/-- C101 is false: with a radial error the first precision is smaller than the inverse of the azimuthal variance. -/
theorem C101_radial_false {h : TrkHit} {c0 c1 c2 c3 c4 c5 : ℝ} {rest : List Dbl} (hp : h.planar = none)
    (hc : h.cov = fin c0 :: fin c1 :: fin c2 :: fin c3 :: fin c4 :: fin c5 :: rest) (ph : ℝ)
    (hu : 0 < varianceAlong c0 c1 c2 (-Real.sin ph) (Real.cos ph)) (hv : 0 < varianceAlong c0 c1 c2 (Real.cos ph) (Real.sin ph))
    (h5 : 0 < c5) (oneD : Bool) :
    ∃ p q : ℝ, getHitInfo h oneD = .ok (⟨h.pos.x * fin (1 / 10), h.pos.y * fin (1 / 10), h.pos.z * fin (1 / 10)⟩, [fin p, fin q]) ∧
      p * (varianceAlong c0 c1 c2 (-Real.sin ph) (Real.cos ph) / 100) < 1 := by
  have htr : varianceAlong c0 c1 c2 (-Real.sin ph) (Real.cos ph) + varianceAlong c0 c1 c2 (Real.cos ph) (Real.sin ph) = c0 + c2 := by
    unfold varianceAlong
    linear_combination (c0 + c2) * Real.sin_sq_add_cos_sq ph
  obtain ⟨p, q, a1, a2, a3, -⟩ := C101_covariance_partial hp hc (by linarith) h5 oneD ph
  refine ⟨p, q, a1, ?_⟩
  have := mul_pos a2 hv
  nlinarith

/-- the hypotheses of `C101_radial_false` are met by independent errors in x and y, in every direction -/
example (ph : ℝ) : 0 < varianceAlong 1 0 4 (-Real.sin ph) (Real.cos ph) ∧ 0 < varianceAlong 1 0 4 (Real.cos ph) (Real.sin ph) := by
  unfold varianceAlong
  have := Real.sin_sq_add_cos_sq ph
  constructor <;> nlinarith [sq_nonneg (Real.sin ph), sq_nonneg (Real.cos ph)]

/-- C101 is false: an error of zero gives an infinite precision, a covariance matrix with less than six entries is read out of
bounds. -/
theorem C101_undefined_false (h : TrkHit) (oneD : Bool) :
    (∀ b, h.planar = some (fin 0, b) → ∃ pos q, getHitInfo h oneD = .ok (pos, [inf false, q])) ∧
    (h.planar = none → h.cov.length < 6 → ∃ m, getHitInfo h oneD = .ub m) := by
  constructor
  · intro b hb
    refine ⟨scaled h.pos, if oneD then 0 else 1 / (b * unit_mm * (b * unit_mm)), ?_⟩
    unfold getHitInfo resolution
    simp only [hb, Out.ok_bind, Out.pure_eq, unit_mm, fin_mul, zero_mul, one_eq]
    rw [show (fin 1 / fin 0 : Dbl) = inf false by rw [fin_div_zero one_ne_zero]; simp [sgn]]
  · intro hp hl
    unfold getHitInfo resolution
    rw [hp]
    have : h.cov[5]? = none := List.getElem?_eq_none (by omega)
    simp only [this]
    cases h.cov[0]? <;> cases h.cov[2]? <;> exact ⟨_, rfl⟩

/-! ## C102 -/

namespace Refit

theorem prefitStep_pos (n : ℕ) : 0 < prefitStep n := by unfold prefitStep; split <;> omega

/-- the loop over the hits of the prefit -/
theorem prefitLoop_eq (n : ℕ) : ∀ m i, n - i ≤ m → ∀ k, k ∈ prefitLoop n i ↔ i ≤ k ∧ k < n ∧ prefitStep n ∣ k - i := by
  have hs := prefitStep_pos n
  intro m
  induction m with
  | zero =>
    intro i hi k
    rw [prefitLoop, dif_neg (by omega)]
    simp only [List.not_mem_nil, false_iff]
    omega
  | succ m ih =>
    intro i hi k
    rw [prefitLoop]
    by_cases hin : i < n
    · rw [dif_pos hin, List.mem_cons, ih _ (by omega)]
      constructor
      · rintro (rfl | ⟨h1, h2, h3⟩)
        · exact ⟨le_rfl, hin, by simp⟩
        · refine ⟨by omega, h2, ?_⟩
          have : k - i = (k - (i + prefitStep n)) + prefitStep n := by omega
          rw [this]
          exact Dvd.dvd.add h3 dvd_rfl
      · rintro ⟨h1, h2, h3⟩
        by_cases hk : k = i
        · exact Or.inl hk
        · right
          have hle : prefitStep n ≤ k - i := Nat.le_of_dvd (by omega) h3
          refine ⟨by omega, h2, ?_⟩
          have : k - (i + prefitStep n) = (k - i) - prefitStep n := by omega
          rw [this]
          exact Nat.dvd_sub h3 dvd_rfl
    · rw [dif_neg hin]
      simp only [List.not_mem_nil, false_iff]
      omega

theorem prefitLoop_sorted (n : ℕ) : ∀ m i, n - i ≤ m → (prefitLoop n i).Pairwise (· < ·) := by
  have hs := prefitStep_pos n
  intro m
  induction m with
  | zero => intro i hi; rw [prefitLoop, dif_neg (by omega)]; exact List.Pairwise.nil
  | succ m ih =>
    intro i hi
    rw [prefitLoop]
    by_cases hin : i < n
    · rw [dif_pos hin, List.pairwise_cons]
      refine ⟨fun k hk => ?_, ih _ (by omega)⟩
      have := (prefitLoop_eq n m _ (by omega) k).1 hk
      omega
    · rw [dif_neg hin]; exact List.Pairwise.nil

theorem prefitLoop_length (n : ℕ) : ∀ m i, n - i ≤ m →
    n - i ≤ prefitStep n * (prefitLoop n i).length ∧ prefitStep n * (prefitLoop n i).length < n - i + prefitStep n := by
  have hs := prefitStep_pos n
  intro m
  induction m with
  | zero => intro i hi; rw [prefitLoop, dif_neg (by omega), List.length_nil]; omega
  | succ m ih =>
    intro i hi
    rw [prefitLoop]
    by_cases hin : i < n
    · rw [dif_pos hin, List.length_cons, Nat.mul_add, Nat.mul_one]
      by_cases h2 : i + prefitStep n < n
      · have := ih (i + prefitStep n) (by omega)
        omega
      · rw [prefitLoop, dif_neg h2, List.length_nil]
        omega
    · rw [dif_neg hin, List.length_nil]; omega

end Refit

/-- C102 (partial): the prefit uses the first hit and then every `step`-th one, in order, where `step` is the number of hits
over 25 rounded down.  Up to 25 hits all of them are used, otherwise at least 25 and at most 49.  Missing: "at most 25"
(`C102_false`). -/
theorem C102_partial (n : ℕ) :
    (∀ k, k ∈ prefitLoop n 0 ↔ k < n ∧ (if n ≤ 25 then 1 else n / 25) ∣ k) ∧ (prefitLoop n 0).Pairwise (· < ·) ∧
    (n ≤ 25 → (prefitLoop n 0).length = n) ∧ (25 < n → 25 ≤ (prefitLoop n 0).length ∧ (prefitLoop n 0).length ≤ 49) := by
  obtain ⟨h1, h2⟩ := prefitLoop_length n n 0 (by omega)
  refine ⟨fun k => ?_, prefitLoop_sorted n n 0 (by omega), fun h => ?_, fun h => ?_⟩
  · have := prefitLoop_eq n n 0 (by omega) k
    simpa [prefitStep] using this
  · rw [prefitStep, if_pos h] at h1 h2
    omega
  · rw [prefitStep, if_neg (by omega)] at h1 h2
    generalize (prefitLoop n 0).length = l at *
    have hq : 25 * (n / 25) ≤ n := Nat.mul_div_le n 25
    have hq2 : n < 25 * (n / 25) + 25 := by omega
    have hq0 : 1 ≤ n / 25 := by omega
    generalize n / 25 = q at *
    constructor
    · by_contra hlt
      have : q * l ≤ q * 24 := Nat.mul_le_mul_left q (by omega)
      omega
    · by_contra hgt
      have : q * 50 ≤ q * l := Nat.mul_le_mul_left q (by omega)
      omega

/-- C102 is false: of 49 hits all are used. -/
theorem C102_false : (prefitLoop 49 0).length = 49 := by
  have h := prefitLoop_length 49 49 0 (by omega)
  have e : prefitStep 49 = 1 := by unfold prefitStep; simp
  rw [e] at h
  omega

end Verif
