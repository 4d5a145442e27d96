import Verif.Model.RoundedAdd
import Verif.Lemmas.ErrorCalculus
import Verif.Lemmas.RoundedMomentum
import Mathlib.Analysis.SpecialFunctions.Trigonometric.Bounds

/-!
# Lemmas for C159: the state of a track at a crossing point
-/

open Classical

noncomputable section

namespace Verif

namespace Rnd

open Dbl

/-- angles with nearly the same sine and cosine -/
theorem angle_near {φ ψ a : ℝ} (h1 : |Real.sin φ - Real.sin ψ| ≤ a) (h2 : |Real.cos φ - Real.cos ψ| ≤ a) :
    ∃ m : ℤ, |φ - ψ - m * (2 * Real.pi)| ≤ 5 / 2 * a := by
  have a0 : 0 ≤ a := (abs_nonneg _).trans h1
  have π0 := Real.pi_pos
  refine ⟨round ((φ - ψ) / (2 * Real.pi)), ?_⟩
  obtain ⟨m, hm⟩ : ∃ m, m = round ((φ - ψ) / (2 * Real.pi)) := ⟨_, rfl⟩
  have k := abs_sub_round ((φ - ψ) / (2 * Real.pi))
  rw [← hm] at k ⊢
  obtain ⟨θ, hθ⟩ : ∃ θ, θ = φ - ψ - m * (2 * Real.pi) := ⟨_, rfl⟩
  have e : (φ - ψ) / (2 * Real.pi) - m = θ / (2 * Real.pi) := by rw [hθ]; field_simp
  rw [e, abs_div, abs_of_pos (show 0 < 2 * Real.pi by linarith), div_le_iff₀ (by linarith)] at k
  rw [← hθ]
  have c := Real.cos_le_one_sub_mul_cos_sq (x := θ) (by linarith)
  have c1 : Real.cos θ = Real.cos (φ - ψ) := by rw [hθ, Real.cos_sub_int_mul_two_pi]
  rw [c1, Real.cos_sub] at c
  have s1 := Real.sin_sq_add_cos_sq φ
  have s2 := Real.sin_sq_add_cos_sq ψ
  have q1 := sq_le_sq' (abs_le.1 h1).1 (abs_le.1 h1).2
  have q2 := sq_le_sq' (abs_le.1 h2).1 (abs_le.1 h2).2
  have c3 : 2 / Real.pi ^ 2 * θ ^ 2 ≤ a ^ 2 := by nlinarith
  rw [div_mul_eq_mul_div, div_le_iff₀ (by positivity)] at c3
  have π2 : Real.pi ^ 2 ≤ 10 := by nlinarith [Real.pi_lt_d2]
  refine abs_le_of_sq_le_sq ?_ (by positivity)
  nlinarith [mul_le_mul_of_nonneg_left π2 (sq_nonneg a)]

/-- two vectors of the plane that are near each other: lengths `ρ`, `R` and directions; `ρ` may be negative, but not by much -/
theorem polar_near {ρ R φ ψ τ : ℝ} (R0 : 0 ≤ R) (hρ : -(τ / 2) ≤ ρ) (h1 : |ρ * Real.sin φ - R * Real.sin ψ| ≤ τ) (h2 : |ρ * Real.cos φ - R * Real.cos ψ| ≤ τ) :
    |R - ρ| ≤ 3 * τ ∧ R * |Real.sin φ - Real.sin ψ| ≤ 4 * τ ∧ R * |Real.cos φ - Real.cos ψ| ≤ 4 * τ := by
  have τ0 : 0 ≤ τ := (abs_nonneg _).trans h1
  have s1 := Real.sin_sq_add_cos_sq φ
  have s2 := Real.sin_sq_add_cos_sq ψ
  have q1 := sq_le_sq' (abs_le.1 h1).1 (abs_le.1 h1).2
  have q2 := sq_le_sq' (abs_le.1 h2).1 (abs_le.1 h2).2
  have c : ρ ^ 2 + R ^ 2 - 2 * (ρ * R * Real.cos (φ - ψ)) ≤ 2 * τ ^ 2 := by
    rw [Real.cos_sub]
    have e : (ρ * Real.sin φ - R * Real.sin ψ) ^ 2 + (ρ * Real.cos φ - R * Real.cos ψ) ^ 2 =
        ρ ^ 2 + R ^ 2 - 2 * (ρ * R * (Real.cos φ * Real.cos ψ + Real.sin φ * Real.sin ψ)) := by
      linear_combination ρ ^ 2 * s1 + R ^ 2 * s2
    linarith
  have c1 : ρ * R * Real.cos (φ - ψ) ≤ |ρ| * R := by
    refine (le_abs_self _).trans ?_
    rw [abs_mul, abs_mul, abs_of_nonneg R0]
    exact mul_le_of_le_one_right (by positivity) (Real.abs_cos_le_one _)
  have c2 : |(|ρ| - R)| ≤ 3 / 2 * τ := by
    refine abs_le_of_sq_le_sq ?_ (by positivity)
    have := sq_abs ρ
    nlinarith
  have c3 := abs_le.1 c2
  have c4 : |R - ρ| ≤ 3 * τ := by
    rcases le_or_gt 0 ρ with p | p
    · rw [abs_of_nonneg p] at c3
      rw [abs_le]
      constructor <;> linarith
    · rw [abs_of_neg p] at c3
      rw [abs_le]
      constructor <;> linarith
  have key : ∀ a b : ℝ, |a| ≤ 1 → |ρ * a - R * b| ≤ τ → R * |a - b| ≤ 4 * τ := by
    intro a b ha hab
    rw [show R * |a - b| = |R * (a - b)| by rw [abs_mul, abs_of_nonneg R0], show R * (a - b) = (R - ρ) * a + (ρ * a - R * b) by ring]
    refine (abs_add_le _ _).trans ?_
    rw [abs_mul]
    have := mul_le_mul c4 ha (abs_nonneg a) (by positivity)
    linarith
  exact ⟨c4, key _ _ (Real.abs_sin_le_one _) h1, key _ _ (Real.abs_cos_le_one _) h2⟩

/-- tolerance of the state of the track at a crossing point: distance `ε` of the crossing point from the track, rounding errors of the move,
and the error `δ` of the azimuth -/
def arrivalError (om d rx ry X Y ε δ : ℝ) : ℝ := ε + 2000 / 2 ^ 53 * (|1 / om| + |d| + |rx| + |ry| + |X| + |Y|) + |1 / om - d| * |δ|

/-- closed form of the track at a given path length -/
theorem track_at {om tl ph x0 y0 z0 : ℝ} {x y w : ℝ → ℝ} (ho : om ≠ 0) (ht : Spec.IsTrack om tl ph x0 y0 z0 x y w) (t : ℝ) :
    x t = x0 + 1 / om * (Real.sin ph - Real.sin (ph - om * t)) ∧ y t = y0 - 1 / om * (Real.cos ph - Real.cos (ph - om * t)) ∧ w t = z0 + tl * t := by
  have t2 := isTrack_r (om := om) (tl := tl) (ph := ph) (rx := x0) (ry := y0) (rz := z0) (d := 0) (z := 0) ho
  simp only [zero_mul, sub_zero, add_zero] at t2
  obtain ⟨e1, e2, e3⟩ := ht.unique t2
  rw [e1, e2, e3]
  simp only [rX, rY, rZ]
  rw [mul_comm om t]
  refine ⟨by ring, by ring, by ring⟩

/-- the state of a track that has been moved to a point near the path length `t` -/
theorem moved_state {om tl ph d z rx ry rz X Y Z t ε φ d' z' f δ : ℝ} {k : ℤ} {x y w : ℝ → ℝ} (ho : om ≠ 0)
    (ht : Spec.IsTrack om tl ph (rx - d * Real.sin ph) (ry + d * Real.cos ph) (rz + z) x y w)
    (hX : |X - x t| ≤ ε) (hY : |Y - y t| ≤ ε) (hZ : |Z - w t| ≤ ε)
    (hf : |f| ≤ Rounded.mPi) (hk : |f - (φ - ph + k * (2 * Real.pi))| ≤ 100 / 2 ^ 53)
    (h1 : |(X + (1 / om - d') * Real.sin φ) - (rx + (1 / om - d) * Real.sin (ph + δ))| ≤ 2000 / 2 ^ 53 * (|1 / om| + |d| + |rx| + |ry| + |X| + |Y|))
    (h2 : |(Y - (1 / om - d') * Real.cos φ) - (ry - (1 / om - d) * Real.cos (ph + δ))| ≤ 2000 / 2 ^ 53 * (|1 / om| + |d| + |rx| + |ry| + |X| + |Y|))
    (h3 : |(Z + z') - (rz + z - tl / om * f)| ≤ 100 / 2 ^ 53 * (|rz| + |Z| + |z| + |tl / om|) + 1 / 2 ^ 800)
    (h4 : -(1000 / 2 ^ 53 * (|1 / om| + |d| + |rx| + |ry| + |X| + |Y|)) ≤ om / |om| * (1 / om - d'))
    (hturn : |om * t| ≤ 3) (hτ : |om| * arrivalError om d rx ry X Y ε δ ≤ 1 / 1000) :
    let τ := arrivalError om d rx ry X Y ε δ
    |d'| ≤ 3 * τ ∧ |Real.sin φ - Real.sin (ph - om * t)| ≤ 4 * (|om| * τ) ∧ |Real.cos φ - Real.cos (ph - om * t)| ≤ 4 * (|om| * τ) ∧
      |z'| ≤ ε + |tl| * (10 * τ + 100 / 2 ^ 53 * |1 / om|) + (100 / 2 ^ 53 * (|rz| + |Z| + |z| + |tl / om|) + 1 / 2 ^ 800) := by
  intro τ
  have hτe : τ = ε + 2000 / 2 ^ 53 * (|1 / om| + |d| + |rx| + |ry| + |X| + |Y|) + |1 / om - d| * |δ| := rfl
  change |om| * τ ≤ 1 / 1000 at hτ
  obtain ⟨M, hM⟩ : ∃ M, M = |1 / om| + |d| + |rx| + |ry| + |X| + |Y| := ⟨_, rfl⟩
  have M0 : 0 ≤ M := by rw [hM]; positivity
  rw [← hM] at h1 h2 h4 hτe
  clear_value τ
  obtain ⟨ex, ey, ez⟩ := track_at ho ht t
  have o0 : 0 < |om| := abs_pos.2 ho
  have ε0 : 0 ≤ ε := (abs_nonneg _).trans hX
  obtain ⟨ψ, hψ⟩ : ∃ ψ, ψ = ph - om * t := ⟨_, rfl⟩
  rw [← hψ] at ex ey ⊢
  obtain ⟨σ, hσ⟩ : ∃ σ, σ = om / |om| := ⟨_, rfl⟩
  have σ1 : |σ| = 1 := by rw [hσ, abs_div, abs_abs, div_self o0.ne']
  have σr : σ * (1 / om) = 1 / |om| := by rw [hσ]; field_simp
  have σσ : σ * σ = 1 := by rw [← abs_mul_abs_self, σ1, one_mul]
  have sd : |Real.sin (ph + δ) - Real.sin ph| ≤ |δ| := by
    have := Real.abs_sin_sub_sin_le (ph + δ) ph
    rwa [add_sub_cancel_left] at this
  have cd : |Real.cos (ph + δ) - Real.cos ph| ≤ |δ| := by
    have := Real.abs_cos_sub_cos_le (ph + δ) ph
    rwa [add_sub_cancel_left] at this
  have sd := mul_le_mul_of_nonneg_left sd (abs_nonneg (1 / om - d))
  have cd := mul_le_mul_of_nonneg_left cd (abs_nonneg (1 / om - d))
  rw [← abs_mul] at sd cd
  have v1 : |(1 / om - d') * Real.sin φ - 1 / om * Real.sin ψ| ≤ τ := by
    rw [show (1 / om - d') * Real.sin φ - 1 / om * Real.sin ψ = ((X + (1 / om - d') * Real.sin φ) - (rx + (1 / om - d) * Real.sin (ph + δ))) +
      (1 / om - d) * (Real.sin (ph + δ) - Real.sin ph) - (X - x t) by rw [ex]; ring]
    refine (abs_sub _ _).trans ?_
    have := abs_add_le ((X + (1 / om - d') * Real.sin φ) - (rx + (1 / om - d) * Real.sin (ph + δ))) ((1 / om - d) * (Real.sin (ph + δ) - Real.sin ph))
    linarith
  have v2 : |(1 / om - d') * Real.cos φ - 1 / om * Real.cos ψ| ≤ τ := by
    rw [show (1 / om - d') * Real.cos φ - 1 / om * Real.cos ψ = -(((Y - (1 / om - d') * Real.cos φ) - (ry - (1 / om - d) * Real.cos (ph + δ))) -
      (1 / om - d) * (Real.cos (ph + δ) - Real.cos ph) - (Y - y t)) by rw [ey]; ring, abs_neg]
    refine (abs_sub _ _).trans ?_
    have := abs_sub ((Y - (1 / om - d') * Real.cos φ) - (ry - (1 / om - d) * Real.cos (ph + δ))) ((1 / om - d) * (Real.cos (ph + δ) - Real.cos ph))
    linarith
  have flip : ∀ a b : ℝ, |(1 / om - d') * a - 1 / om * b| ≤ τ → |σ * (1 / om - d') * a - 1 / |om| * b| ≤ τ := by
    intro a b hab
    rw [← σr, show σ * (1 / om - d') * a - σ * (1 / om) * b = σ * ((1 / om - d') * a - 1 / om * b) by ring, abs_mul, σ1, one_mul]
    exact hab
  rw [← hσ] at h4
  have h4' : -(τ / 2) ≤ σ * (1 / om - d') := by
    have : 0 ≤ |1 / om - d| * |δ| := by positivity
    rw [show (1000 : ℝ) / 2 ^ 53 = 2000 / 2 ^ 53 / 2 by ring] at h4
    linarith
  obtain ⟨p1, p2, p3⟩ := polar_near (by positivity) h4' (flip _ _ v1) (flip _ _ v2)
  have p1 : |d'| ≤ 3 * τ := by
    rw [← σr, show σ * (1 / om) - σ * (1 / om - d') = σ * d' by ring, abs_mul, σ1, one_mul] at p1
    exact p1
  rw [one_div_mul_eq_div, div_le_iff₀ o0] at p2 p3
  have p2 : |Real.sin φ - Real.sin ψ| ≤ 4 * (|om| * τ) := by linarith
  have p3 : |Real.cos φ - Real.cos ψ| ≤ 4 * (|om| * τ) := by linarith
  refine ⟨p1, p2, p3, ?_⟩
  obtain ⟨m, hm⟩ := angle_near p2 p3
  have π1 := Real.pi_gt_d4
  have π2 := Real.pi_lt_d4
  have key : |f + om * t| ≤ 10 * (|om| * τ) + 100 / 2 ^ 53 := by
    have a1 : |f + om * t - (m + k : ℤ) * (2 * Real.pi)| ≤ 10 * (|om| * τ) + 100 / 2 ^ 53 := by
      rw [show f + om * t - (m + k : ℤ) * (2 * Real.pi) = (f - (φ - ph + k * (2 * Real.pi))) + (φ - ψ - m * (2 * Real.pi)) by rw [hψ]; push_cast; ring]
      refine (abs_add_le _ _).trans ?_
      linarith
    have n0 : m + k = 0 := by
      by_contra hn
      have n1 : (1 : ℝ) ≤ |((m + k : ℤ) : ℝ)| := by
        rw [← Int.cast_abs]
        exact_mod_cast Int.one_le_abs hn
      have n2 : 2 * Real.pi ≤ |((m + k : ℤ) : ℝ) * (2 * Real.pi)| := by
        rw [abs_mul, abs_of_pos (show 0 < 2 * Real.pi by linarith)]
        exact le_mul_of_one_le_left (by linarith) n1
      have n3 := abs_le.1 a1
      have n4 : |f + om * t| ≤ Rounded.mPi + 3 := (abs_add_le _ _).trans (add_le_add hf hturn)
      have n5 := abs_le.1 n4
      have n6 : Rounded.mPi ≤ 3.15 := by rw [Rounded.mPi]; norm_num
      have n7 : (100 : ℝ) / 2 ^ 53 ≤ 1 / 1000 := by norm_num
      rcases le_abs'.1 n2 with q | q <;> linarith
    rw [n0] at a1
    simpa using a1
  have e : z' = (Z + z' - (rz + z - tl / om * f)) - (Z - w t) - tl / om * (f + om * t) := by
    rw [ez]
    field_simp
    ring
  rw [e]
  refine (abs_sub _ _).trans ?_
  have g1 := abs_sub (Z + z' - (rz + z - tl / om * f)) (Z - w t)
  have g2 : |tl / om * (f + om * t)| ≤ |tl| * (10 * τ + 100 / 2 ^ 53 * |1 / om|) := by
    rw [abs_mul, abs_div, abs_div, abs_one, div_mul_eq_mul_div, mul_div_assoc]
    refine mul_le_mul_of_nonneg_left ?_ (abs_nonneg _)
    rw [div_le_iff₀ o0]
    refine key.trans (le_of_eq ?_)
    field_simp
  linarith

/-- the curvature after the loss of energy -/
theorem curvature_ap (h : NearestF 53 1074 fl) {om D E E0 : ℝ} (o1 : 1 / 2 ^ 100 ≤ |om|) (o2 : |om| ≤ 2 ^ 100) (e1 : 1 / 2 ^ 110 ≤ E0) (e2 : E0 ≤ 2 ^ 110)
    (hE : |E - E0| ≤ 100 / 2 ^ 53 * E0) (hD : |D| ≤ E0 / 2) :
    ∃ om', lossCurvature fl (fin om) (fin D) (fin E) = fin om' ∧ |om' - om / (1 - D / E0)| ≤ 1 / 2 ^ 44 * |om / (1 - D / E0)| := by
  have E00 : 0 < E0 := lt_of_lt_of_le (by positivity) e1
  have o0 : 0 < |om| := lt_of_lt_of_le (by positivity) o1
  have gD : Ap 110 E0 (fin D) (fin D) (1 / 2) 0 := Ap.given e1 e2 (by linarith)
  have gE : Ap 110 E0 (fin E) (fin E0) 1 100 := ⟨e1, e2, E, E0, rfl, rfl, hE.trans (le_of_eq (by ring)), by rw [one_mul, abs_of_pos E00]⟩
  have q := Ap.div h gD gE rfl (le_abs_self _) (by norm_num) (by norm_num) (by norm_num) (by norm_num)
  rw [mul_one_div_cancel E00.ne', fin_div _ E00.ne'] at q
  have q1 := (q.rescale (T := 1) (l := 0) (c := 1) (by norm_num) (by norm_num) (by norm_num)).mono (B' := 1 / 2) (e' := 51) (by norm_num) (by norm_num)
  have s := Ap.sub (a := fin 1) (a' := fin 1) h (Ap.unit (x := 1) (B := 1) (by simp)) q1 (by norm_num) (by norm_num) (by norm_num)
  have s1 := (s.rescale (T := 1 / 2) (l := 1) (c := 2) (by norm_num) (by norm_num) (by norm_num)).mono (B' := 3) (e' := 106) (by norm_num) (by norm_num)
  rw [fin_sub] at s1
  have dq : |D / E0| ≤ 1 / 2 := by
    rw [abs_div, abs_of_pos E00, div_le_iff₀ E00]
    linarith
  have dq' := abs_le.1 dq
  have y0 : 1 / 2 ≤ |1 - D / E0| := by
    rw [abs_of_pos (by linarith)]
    linarith
  have yn : 1 - D / E0 ≠ 0 := by linarith
  have r := Ap.div h (Ap.given (k := 100) (S := |om|) (x := om) (B := 1) o1 o2 (by rw [one_mul])) s1 rfl y0 (by norm_num) (by norm_num) (by norm_num) (by norm_num)
  rw [fin_div _ yn] at r
  obtain ⟨om', x, r1, r2, r3, -⟩ := r.val
  injection r2 with r2
  subst r2
  refine ⟨om', by rw [lossCurvature, one_eq]; exact r1, r3.trans ?_⟩
  rw [abs_div om, abs_of_pos (show 0 < 1 - D / E0 by linarith)]
  have k : |om| ≤ 3 / 2 * (|om| / (1 - D / E0)) := by
    rw [← mul_div_assoc, le_div_iff₀ (by linarith)]
    nlinarith
  generalize |om| / (1 - D / E0) = W at *
  norm_num at *
  linarith

end Rnd

end Verif
