import Verif.Props.SurfaceDispatch
import Verif.Props.HelixGeometry
import Verif.Props.TrajectoryExample
import Mathlib.Analysis.SpecialFunctions.Trigonometric.ArctanDeriv
import Mathlib.Analysis.Calculus.Deriv.Prod

/-!
# C112: the Newton iteration
-/

noncomputable section

namespace Verif

open Dbl

/-- A damped Newton search for a zero of `D` with slopes `g`, started at `s0`: from the best arc length found so far a step of
`D / ((1 + α) g)` is tried; it is kept if it is closer, then the damping is divided by ten, otherwise multiplied by ten. -/
structure NewtonRun (D g : ℝ → ℝ) (s0 : ℝ) (tried best damping : ℕ → ℝ) : Prop where
  start : tried 0 = s0 ∧ best 0 = s0 ∧ damping 0 = 1 / 10 ^ 11
  step : ∀ k, tried (k + 1) = best k - D (best k) / ((1 + damping k) * g (best k))
  closer : ∀ k, |D (tried (k + 1))| < |D (best k)| → best (k + 1) = tried (k + 1) ∧ damping (k + 1) = damping k / 10
  farther : ∀ k, ¬ |D (tried (k + 1))| < |D (best k)| → best (k + 1) = best k ∧ damping (k + 1) = damping k * 10

namespace Newton

variable (D g : ℝ → ℝ) (s0 : ℝ)

/-- tried arc length, best arc length and damping after `k` steps -/
def run : ℕ → ℝ × ℝ × ℝ
  | 0 => (s0, s0, 1 / 10 ^ 11)
  | k + 1 =>
    let (_, b, a) := run k
    let t := b - D b / ((1 + a) * g b)
    open Classical in if |D t| < |D b| then (t, t, a / 10) else (t, b, a * 10)

theorem run_run : NewtonRun D g s0 (fun k => (run D g s0 k).1) (fun k => (run D g s0 k).2.1) (fun k => (run D g s0 k).2.2) := by
  have h1 : ∀ k, (run D g s0 (k + 1)).1 =
      (run D g s0 k).2.1 - D (run D g s0 k).2.1 / ((1 + (run D g s0 k).2.2) * g (run D g s0 k).2.1) := by
    intro k
    simp only [run]
    split <;> rfl
  refine ⟨⟨rfl, rfl, rfl⟩, h1, fun k h => ?_, fun k h => ?_⟩
  · rw [h1 k] at h ⊢
    simp only [run]
    rw [if_pos h]
    exact ⟨rfl, rfl⟩
  · rw [h1 k] at h
    simp only [run]
    rw [if_neg h]
    exact ⟨rfl, rfl⟩

end Newton

namespace NewtonRun

variable {D g : ℝ → ℝ} {s0 : ℝ} {tried best damping : ℕ → ℝ} (R : NewtonRun D g s0 tried best damping)
include R

theorem damping_pos (k : ℕ) : 0 < damping k := by
  induction k with
  | zero => rw [R.start.2.2]; norm_num
  | succ k ih =>
    by_cases h : |D (tried (k + 1))| < |D (best k)|
    · rw [(R.closer k h).2]; linarith
    · rw [(R.farther k h).2]; linarith

/-- the best arc length is the closest one that was tried -/
theorem best_le (k : ℕ) : ∀ j ≤ k, |D (best k)| ≤ |D (tried j)| := by
  induction k with
  | zero => intro j hj; rw [Nat.le_zero.mp hj, R.start.1, R.start.2.1]
  | succ k ih =>
    intro j hj
    by_cases h : |D (tried (k + 1))| < |D (best k)|
    · rw [(R.closer k h).1]
      rcases Nat.lt_or_eq_of_le hj with hj | rfl
      · exact h.le.trans (ih j (by omega))
      · exact le_rfl
    · rw [(R.farther k h).1]
      rcases Nat.lt_or_eq_of_le hj with hj | rfl
      · exact ih j (by omega)
      · exact not_lt.mp h

theorem best_mem (k : ℕ) : ∃ j ≤ k, best k = tried j := by
  induction k with
  | zero => exact ⟨0, le_rfl, by rw [R.start.1, R.start.2.1]⟩
  | succ k ih =>
    by_cases h : |D (tried (k + 1))| < |D (best k)|
    · exact ⟨k + 1, le_rfl, (R.closer k h).1⟩
    · obtain ⟨j, hj, e⟩ := ih
      exact ⟨j, by omega, by rw [(R.farther k h).1, e]⟩

end NewtonRun

namespace Newton

variable {surf : Surface} {hp : V5} {rp : V3} {D g : ℝ → ℝ} {s0 : ℝ} {tried best damping : ℕ → ℝ}

/-- variables of the loop before the evaluation of the distance at `tried k`, for k = k' + 1 -/
def state (hp : V5) (rp : V3) (D : ℝ → ℝ) (tried best damping : ℕ → ℝ) (k : ℕ) : NewtonState :=
  ⟨fin (tried (k + 1)), pointAt (fin (tried (k + 1))) hp rp, pointAt (fin (best k)) hp rp, fin (best k), fin (D (best k)),
    fin (damping k), k + 1, none, k + 1⟩

theorem eps_eq : (1e-3 : Dbl) * unit_mm = fin (1 / 10000) := by
  simp only [unit_mm, ofSci_eq, fin_mul]
  norm_num

theorem body (R : NewtonRun D g s0 tried best damping)
    (hg : ∀ s, (surf.normal (pointAt (fin s) hp rp)).dot (calculateTangent (fin s) hp) = fin (g s)) (h0 : ∀ s, g s ≠ 0) (k : ℕ) :
    fin (best k) - fin (D (best k)) / ((1 + fin (damping k)) *
      (surf.normal (pointAt (fin (best k)) hp rp)).dot (calculateTangent (fin (best k)) hp)) = fin (tried (k + 1)) := by
  have hp := R.damping_pos k
  rw [hg, one_eq, fin_add, fin_mul, fin_div _ (mul_ne_zero (by linarith) (h0 _)), fin_sub, R.step k]

theorem step_first (R : NewtonRun D g s0 tried best damping)
    (hD : ∀ s, surf.distance (pointAt (fin s) hp rp) = fin (D s))
    (hg : ∀ s, (surf.normal (pointAt (fin s) hp rp)).dot (calculateTangent (fin s) hp) = fin (g s)) (h0 : ∀ s, g s ≠ 0)
    (hs : |D s0| < 10 ^ 10) (hn : ¬ |D s0| < 1 / 10000) :
    newtonStep surf hp rp (newtonInit hp rp (fin s0)) = state hp rp D tried best damping 0 := by
  have hb := body R hg h0 0
  obtain ⟨r1, r2, r3⟩ := R.start
  rw [r2, r3] at hb
  have ha : (1e-10 : Dbl) * (1 / 10) = fin (1 / 10 ^ 11) := by
    rw [one_eq, ofSci_eq, ofNat_eq, fin_div _ (by norm_num), fin_mul]
    norm_num
  unfold newtonStep newtonInit
  rw [if_neg (by norm_num)]
  dsimp only
  rw [hD, eps_eq, abs_fin, cif_neg (by rw [fin_lt]; exact hn), ofSci_eq, abs_fin,
    cif_pos (by rw [fin_lt]; norm_num at hs ⊢; exact hs)]
  dsimp only
  rw [ha, hb]
  simp only [state, r2, r3]

theorem step_next (R : NewtonRun D g s0 tried best damping)
    (hD : ∀ s, surf.distance (pointAt (fin s) hp rp) = fin (D s))
    (hg : ∀ s, (surf.normal (pointAt (fin s) hp rp)).dot (calculateTangent (fin s) hp) = fin (g s)) (h0 : ∀ s, g s ≠ 0)
    {k : ℕ} (hk : k < 100) (hn : ¬ |D (tried (k + 1))| < 1 / 10000) :
    newtonStep surf hp rp (state hp rp D tried best damping k) = state hp rp D tried best damping (k + 1) := by
  have hb := body R hg h0 (k + 1)
  unfold newtonStep state
  rw [if_neg (by dsimp only; omega)]
  dsimp only
  rw [hD, eps_eq, abs_fin, cif_neg (by rw [fin_lt]; exact hn), abs_fin]
  by_cases h : |D (tried (k + 1))| < |D (best k)|
  · obtain ⟨e1, e2⟩ := R.closer k h
    have ha : fin (damping k) * (1 / 10) = fin (damping (k + 1)) := by
      rw [one_eq, ofNat_eq, fin_div _ (by norm_num), fin_mul, e2]
      congr 1
      ring
    rw [cif_pos (by rw [fin_lt]; exact h)]
    dsimp only
    rw [e1] at hb
    rw [ha, hb, e1]
  · obtain ⟨e1, e2⟩ := R.farther k h
    have ha : fin (damping k) * 10 = fin (damping (k + 1)) := by
      rw [ofNat_eq, fin_mul, e2]
    rw [cif_neg (by rw [fin_lt]; exact h)]
    dsimp only
    rw [e1] at hb
    rw [ha, hb, e1]

theorem step_small (hD : ∀ s, surf.distance (pointAt (fin s) hp rp) = fin (D s)) {k : ℕ} (hk : k < 100)
    (hn : |D (tried (k + 1))| < 1 / 10000) :
    newtonStep surf hp rp (state hp rp D tried best damping k) =
      { state hp rp D tried best damping k with count := k + 2, evals := k + 2, done := some true } := by
  unfold newtonStep state
  rw [if_neg (by dsimp only; omega)]
  dsimp only
  rw [hD, eps_eq, abs_fin, cif_pos (by rw [fin_lt]; exact hn)]

theorem step_last : newtonStep surf hp rp (state hp rp D tried best damping 100) =
    { state hp rp D tried best damping 100 with s := fin (best 100), xx := pointAt (fin (best 100)) hp rp, done := some false } := by
  unfold newtonStep state
  rw [if_pos (by dsimp only; omega)]

end Newton

open Newton

/-- where the search ends: at the first arc length among the first 101 tried ones that is close to the surface, or without success
at the closest one of the tried ones -/
def SearchResult (D : ℝ → ℝ) (tried : ℕ → ℝ) (success : Bool) (s : ℝ) : Prop :=
  if success then ∃ k ≤ 100, s = tried k ∧ |D (tried k)| < 1 / 10000 ∧ ∀ j < k, 1 / 10000 ≤ |D (tried j)|
  else (∀ k ≤ 100, 1 / 10000 ≤ |D (tried k)|) ∧ (∃ k ≤ 100, s = tried k) ∧ ∀ k ≤ 100, |D s| ≤ |D (tried k)|

theorem newton_loop {surf : Surface} {hp : V5} {rp : V3} {D g : ℝ → ℝ} {s0 : ℝ} {tried best damping : ℕ → ℝ}
    (R : NewtonRun D g s0 tried best damping)
    (hD : ∀ s, surf.distance (pointAt (fin s) hp rp) = fin (D s))
    (hg : ∀ s, (surf.normal (pointAt (fin s) hp rp)).dot (calculateTangent (fin s) hp) = fin (g s)) (h0 : ∀ s, g s ≠ 0)
    (hs : |D s0| < 10 ^ 10) :
    ∃ (st : NewtonState) (success : Bool) (s : ℝ), newtonLoop surf hp rp (fin s0) = .ok st ∧ st.done = some success ∧
      st.s = fin s ∧ st.xx = pointAt (fin s) hp rp ∧ SearchResult D tried success s := by
  have key : ∀ n k : ℕ, k + n = 100 → (∀ j < k + 1, 1 / 10000 ≤ |D (tried j)|) →
      ∃ (st : NewtonState) (success : Bool) (s : ℝ),
        whileLoop (fun st => st.done = none) (newtonStep surf hp rp) (state hp rp D tried best damping k) = .ok st ∧
        st.done = some success ∧ st.s = fin s ∧ st.xx = pointAt (fin s) hp rp ∧ SearchResult D tried success s := by
    intro n
    induction n with
    | zero =>
      intro k hk hj
      obtain rfl : k = 100 := by omega
      rw [whileLoop_of_cond (by rfl), step_last, whileLoop_of_not (by simp)]
      refine ⟨_, false, best 100, rfl, rfl, rfl, rfl, ?_⟩
      obtain ⟨j, hj', e⟩ := R.best_mem 100
      exact ⟨fun k hk => hj k (by omega), ⟨j, hj', e⟩, R.best_le 100⟩
    | succ n ih =>
      intro k hk hj
      rw [whileLoop_of_cond (by rfl)]
      by_cases hn : |D (tried (k + 1))| < 1 / 10000
      · rw [step_small hD (by omega) hn, whileLoop_of_not (by simp)]
        exact ⟨_, true, tried (k + 1), rfl, rfl, rfl, rfl, k + 1, by omega, rfl, hn, hj⟩
      · rw [step_next R hD hg h0 (by omega) hn]
        refine ih (k + 1) (by omega) fun j hj' => ?_
        rcases Nat.lt_or_eq_of_le (Nat.lt_succ_iff.mp hj') with h | rfl
        · exact hj j h
        · exact not_lt.mp hn
  unfold newtonLoop
  rw [whileLoop_of_cond (by rfl)]
  by_cases hn : |D s0| < 1 / 10000
  · have : newtonStep surf hp rp (newtonInit hp rp (fin s0)) =
        { newtonInit hp rp (fin s0) with count := 1, evals := 1, done := some true } := by
      unfold newtonStep newtonInit
      rw [if_neg (by norm_num)]
      dsimp only
      rw [hD, eps_eq, abs_fin, cif_pos (by rw [fin_lt]; exact hn)]
    rw [this, whileLoop_of_not (by simp)]
    exact ⟨_, true, s0, rfl, rfl, rfl, rfl, 0, by omega, R.start.1.symm, by rw [R.start.1]; exact hn, by simp⟩
  · rw [step_first R hD hg h0 hs hn]
    refine key 100 0 rfl fun j hj => ?_
    obtain rfl : j = 0 := by omega
    rw [R.start.1]
    exact not_lt.mp hn

/-- C112: what the iteration does.  Let `D` be the distance from the surface along the track and `g` the product of normal and tangent
there, different from zero.  Started closer than 1e10, the iteration is the damped Newton search for `D = 0` with slopes `g`: it
ends at the first tried arc length that is close, or after 101 of them with failure at the closest one. -/
theorem C112_steps {surf : Surface} {hp : V5} {rp : V3} {D g : ℝ → ℝ} {s0 : ℝ}
    (hD : ∀ s, surf.distance (pointAt (fin s) hp rp) = fin (D s))
    (hg : ∀ s, (surf.normal (pointAt (fin s) hp rp)).dot (calculateTangent (fin s) hp) = fin (g s)) (h0 : ∀ s, g s ≠ 0)
    (hs : |D s0| < 10 ^ 10) (xx : V3) (mode : ℤ) (cb : Bool) :
    ∃ (tried best damping : ℕ → ℝ) (success : Bool) (s : ℝ) (hit : Hit), NewtonRun D g s0 tried best damping ∧
      SearchResult D tried success s ∧ intersectWithSurfaceNewton surf hp rp (fin s0) xx mode cb = .ok hit ∧ hit.s = fin s ∧
      hit.xx = pointAt (fin s) hp rp ∧
      (hit.found = true ↔ success = true ∧ (mode = 0 ∨ 0 < (mode : ℝ) * s) ∧ (cb = true → surf.insideBounds hit.xx = true)) := by
  have R := run_run D g s0
  obtain ⟨st, success, s, e, e1, e2, e3, e4⟩ := newton_loop R hD hg h0 hs
  refine ⟨_, _, _, success, s, ⟨success && decide (mode = 0 ∨ 0 < (mode : ℝ) * s) && boundsOk surf cb (pointAt (fin s) hp rp), fin s,
    pointAt (fin s) hp rp⟩, R, e4, ?_, rfl, rfl, ?_⟩
  · unfold intersectWithSurfaceNewton
    rw [e, Out.ok_bind, e1, e2, e3]
    cases success with
    | false => simp
    | true =>
      rw [if_pos rfl]
      by_cases hm : mode = 0 ∨ 0 < (mode : ℝ) * s
      · rw [cif_pos ((modeOk_fin _ _).mpr hm)]; simp [hm]
      · rw [cif_neg (fun h => hm ((modeOk_fin _ _).mp h))]; simp [hm]
  · simp only [Bool.and_eq_true, decide_eq_true_eq, boundsOk_iff, and_assoc]

/-- C112 (partial): if the normal is the gradient of the distance, then the slope used is that of the distance along the track times the
cosine of the dip angle; so the steps are those of Newton's method only for tracks across z.  Missing: tracks with dip
(`C112_false`). -/
theorem C112_slope_partial {om tl ph d z rx ry rz : ℝ} (hom : om ≠ 0) {surf : Surface} {F : (Fin 3 → ℝ) → ℝ}
    {n : (Fin 3 → ℝ) → Fin 3 → ℝ} (hF : ∀ x y w, surf.distance (V3.re x y w) = fin (F ![x, y, w]))
    (hn : ∀ x y w, surf.normal (V3.re x y w) = V3.re (n ![x, y, w] 0) (n ![x, y, w] 1) (n ![x, y, w] 2))
    (hd : ∀ p, ∃ L : (Fin 3 → ℝ) →L[ℝ] ℝ, HasFDerivAt F L p ∧ ∀ v, L v = n p 0 * v 0 + n p 1 * v 1 + n p 2 * v 2) :
    ∃ D D' g : ℝ → ℝ, (∀ s, surf.distance (pointAt (fin s) (hpR om tl ph d z) (V3.re rx ry rz)) = fin (D s)) ∧
      (∀ s, (surf.normal (pointAt (fin s) (hpR om tl ph d z) (V3.re rx ry rz))).dot (calculateTangent (fin s) (hpR om tl ph d z)) =
        fin (g s)) ∧
      ∀ s, HasDerivAt D (D' s) s ∧ g s = Real.cos (Real.arctan tl) * D' s := by
  have hc := Real.cos_arctan_pos tl
  have ht := isTrack_r (om := om) (tl := tl) (ph := ph) (d := d) (z := z) (rx := rx) (ry := ry) (rz := rz) hom
  let P : ℝ → Fin 3 → ℝ := fun s => ![rX om ph d rx s, rY om ph d ry s, rZ tl z rz s]
  let V : ℝ → Fin 3 → ℝ := fun s => ![Real.cos (ph - om * s), Real.sin (ph - om * s), tl]
  have hP : ∀ s, HasDerivAt P (V s) s := by
    intro s
    rw [hasDerivAt_pi]
    intro i
    fin_cases i
    · exact ht.vel_x s
    · exact ht.vel_y s
    · exact ht.vel_z s
  refine ⟨fun s => F (P s), fun s => n (P s) 0 * V s 0 + n (P s) 1 * V s 1 + n (P s) 2 * V s 2,
    fun s => n (P s) 0 * (V s 0 * Real.cos (Real.arctan tl)) + n (P s) 1 * (V s 1 * Real.cos (Real.arctan tl)) +
      n (P s) 2 * Real.sin (Real.arctan tl), fun s => ?_, fun s => ?_, fun s => ⟨?_, ?_⟩⟩
  · rw [pointAt_re hom, hF]
  · rw [pointAt_re hom, hn, calculateTangent_re]
    simp only [V3.dot, V3.re, fin_mul, fin_add]
    rfl
  · obtain ⟨L, hL, e⟩ := hd (P s)
    have h := hL.comp_hasDerivAt s (hP s)
    rw [e] at h
    exact h
  · have e : Real.sin (Real.arctan tl) = tl * Real.cos (Real.arctan tl) := by
      have := Real.tan_arctan tl
      rw [Real.tan_eq_sin_div_cos, div_eq_iff hc.ne'] at this
      exact this
    have e2 : V s 2 = tl := rfl
    dsimp only
    rw [e, e2]
    ring

/-! ### Surfaces across z -/

/-- the surface is the plane at z = `h`, as far as distance and normal are concerned -/
def FlatAt (h : ℝ) (surf : Surface) : Prop :=
  (∀ x y w, surf.distance (V3.re x y w) = fin (w - h)) ∧ ∀ p, surf.normal p = V3.re 0 0 1

section flat

variable {om tl ph d z rx ry rz h : ℝ} {surf : Surface}

theorem flat_D (hom : om ≠ 0) (hf : FlatAt h surf) (s : ℝ) :
    surf.distance (pointAt (fin s) (hpR om tl ph d z) (V3.re rx ry rz)) = fin (rz + z + s * tl - h) := by
  rw [pointAt_re hom, hf.1]; rfl

theorem sin_arctan_mul (tl : ℝ) : Real.sin (Real.arctan tl) = tl * Real.cos (Real.arctan tl) := by
  have := Real.tan_arctan tl
  rwa [Real.tan_eq_sin_div_cos, div_eq_iff (Real.cos_arctan_pos tl).ne'] at this

theorem flat_g (hf : FlatAt h surf) (p : V3) (s : ℝ) :
    (surf.normal p).dot (calculateTangent (fin s) (hpR om tl ph d z)) = fin (tl * Real.cos (Real.arctan tl)) := by
  rw [hf.2, calculateTangent_re]
  simp only [V3.dot, V3.re, fin_mul, fin_add]
  rw [fin_inj, sin_arctan_mul]
  ring

/-- one step on a flat surface multiplies the distance -/
theorem flat_step {a c b α : ℝ} (ht : tl ≠ 0) (hc : c ≠ 0) (hα : 0 < α) :
    a + (b - (a + b * tl - h) / ((1 + α) * (tl * c))) * tl - h = (a + b * tl - h) * (1 - 1 / ((1 + α) * c)) := by
  have : 1 + α ≠ 0 := by linarith
  field_simp
  ring

end flat

/-- C112 (partial): on a flat surface across z the iteration finds the crossing, if the slope of the track is moderate. -/
theorem C112_converges_partial {om tl ph d z rx ry rz h s0 : ℝ} (hom : om ≠ 0) (ht : tl ≠ 0) (ht2 : tl ^ 2 ≤ 5 / 4) {surf : Surface}
    (hf : FlatAt h surf) (hs : |rz + z + s0 * tl - h| < 10 ^ 10) (xx : V3) :
    ∃ hit : Hit, intersectWithSurfaceNewton surf (hpR om tl ph d z) (V3.re rx ry rz) (fin s0) xx 0 false = .ok hit ∧
      hit.found = true := by
  set c := Real.cos (Real.arctan tl) with hcd
  have hc : 0 < c := Real.cos_arctan_pos tl
  have hc1 : c ≤ 1 := Real.cos_le_one _
  have hc2 : 2 / 3 ≤ c := by
    have h1 := Real.sin_sq_add_cos_sq (Real.arctan tl)
    rw [sin_arctan_mul, ← hcd] at h1
    have h2 : c ^ 2 * (1 + tl ^ 2) = 1 := by linarith
    by_contra h3
    push Not at h3
    nlinarith [mul_pos hc hc, sq_nonneg tl]
  obtain ⟨tried, best, α, success, s, hit, R, hr, e, -, -, hit_iff⟩ :=
    C112_steps (D := fun s => rz + z + s * tl - h) (g := fun _ => tl * c) (s0 := s0) (surf := surf)
      (hp := hpR om tl ph d z) (rp := V3.re rx ry rz) (flat_D hom hf) (fun s => flat_g hf _ s)
      (fun _ => mul_ne_zero ht hc.ne') hs xx 0 false
  refine ⟨hit, e, hit_iff.mpr ⟨?_, Or.inl rfl, by simp⟩⟩
  by_contra hsu
  rw [Bool.not_eq_true] at hsu
  subst hsu
  obtain ⟨hr, -, -⟩ := hr
  have hstep : ∀ k, rz + z + tried (k + 1) * tl - h = (rz + z + best k * tl - h) * (1 - 1 / ((1 + α k) * c)) := by
    intro k
    rw [R.step k]
    exact flat_step ht hc.ne' (R.damping_pos k)
  have inv : ∀ k, |rz + z + best k * tl - h| ≤ 10 ^ 10 / 2 ^ k ∧ (rz + z + best k * tl - h = 0 ∨ α k ≤ 1) := by
    intro k
    induction k with
    | zero =>
      refine ⟨?_, Or.inr ?_⟩
      · rw [R.start.2.1, pow_zero, div_one]; exact hs.le
      · rw [R.start.2.2]; norm_num
    | succ k ih =>
      obtain ⟨i1, i2⟩ := ih
      have hα := R.damping_pos k
      rcases i2 with i2 | i2
      · have hd : rz + z + tried (k + 1) * tl - h = 0 := by rw [hstep k, i2, zero_mul]
        have hf : ¬ |rz + z + tried (k + 1) * tl - h| < |rz + z + best k * tl - h| := by rw [hd, i2]; exact lt_irrefl _
        rw [(R.farther k hf).1]
        exact ⟨by rw [i2, abs_zero]; positivity, Or.inl i2⟩
      · have hρ : |1 - 1 / ((1 + α k) * c)| ≤ 1 / 2 := by
          have hp : 0 < (1 + α k) * c := by positivity
          have h1 : 1 / ((1 + α k) * c) ≤ 3 / 2 := by
            rw [div_le_iff₀ hp]; nlinarith
          have h2 : 1 / 2 ≤ 1 / ((1 + α k) * c) := by
            rw [le_div_iff₀ hp]; nlinarith
          rw [abs_le]
          constructor <;> linarith
        have hle : |rz + z + tried (k + 1) * tl - h| ≤ |rz + z + best k * tl - h| / 2 := by
          rw [hstep k, abs_mul]
          nlinarith [abs_nonneg (rz + z + best k * tl - h)]
        by_cases hz : rz + z + best k * tl - h = 0
        · have hf : ¬ |rz + z + tried (k + 1) * tl - h| < |rz + z + best k * tl - h| := by
            rw [hstep k, hz, zero_mul]; exact lt_irrefl _
          rw [(R.farther k hf).1]
          exact ⟨by rw [hz, abs_zero]; positivity, Or.inl hz⟩
        · have hlt : |rz + z + tried (k + 1) * tl - h| < |rz + z + best k * tl - h| := by
            have := abs_pos.mpr hz
            linarith
          obtain ⟨e1, e2⟩ := R.closer k hlt
          rw [e1, e2]
          refine ⟨?_, Or.inr (by linarith)⟩
          have : (10 : ℝ) ^ 10 / 2 ^ (k + 1) = 10 ^ 10 / 2 ^ k / 2 := by rw [pow_succ 2 k, div_div]
          rw [this]
          linarith
  have h100 := hr 100 le_rfl
  dsimp only at h100
  have h99 := (inv 100).1
  have hb := R.best_mem 100
  obtain ⟨j, hj, ej⟩ := hb
  have := hr j hj
  dsimp only at this
  rw [← ej] at this
  have hnum : (10 : ℝ) ^ 10 / 2 ^ 100 < 1 / 10000 := by norm_num
  linarith

/-- C112 is false: with slope √3 (dip angle 60°) the steps are twice as long as they should be, so that each step leads to nearly the
same distance on the other side.  The search fails from every start farther away than 1 cm, although the track crosses the surface. -/
theorem C112_false {om ph d z rx ry rz h s0 : ℝ} (hom : om ≠ 0) {surf : Surface} (hf : FlatAt h surf)
    (h1 : 1 ≤ |rz + z + s0 * Real.sqrt 3 - h|) (hs : |rz + z + s0 * Real.sqrt 3 - h| < 10 ^ 10) (xx : V3) (mode : ℤ) (cb : Bool) :
    (∃ s : ℝ, surf.distance (pointAt (fin s) (hpR om (Real.sqrt 3) ph d z) (V3.re rx ry rz)) = fin 0) ∧
    ∃ hit : Hit, intersectWithSurfaceNewton surf (hpR om (Real.sqrt 3) ph d z) (V3.re rx ry rz) (fin s0) xx mode cb = .ok hit ∧
      hit.found = false := by
  have h3 : 0 < Real.sqrt 3 := Real.sqrt_pos.mpr (by norm_num)
  have h33 : Real.sqrt 3 ^ 2 = 3 := Real.sq_sqrt (by norm_num)
  refine ⟨⟨(h - rz - z) / Real.sqrt 3, ?_⟩, ?_⟩
  · rw [flat_D hom hf, div_mul_cancel₀ _ h3.ne', fin_inj]; ring
  generalize Real.sqrt 3 = tl at *
  have hc : Real.cos (Real.arctan tl) = 1 / 2 := by
    have h1 := Real.sin_sq_add_cos_sq (Real.arctan tl)
    have hp := Real.cos_arctan_pos tl
    rw [sin_arctan_mul, mul_pow, h33] at h1
    nlinarith
  obtain ⟨tried, best, α, success, s, hit, R, hr, e, -, -, hit_iff⟩ :=
    C112_steps (D := fun s => rz + z + s * tl - h) (g := fun _ => tl * (1 / 2)) (s0 := s0) (surf := surf)
      (hp := hpR om tl ph d z) (rp := V3.re rx ry rz) (flat_D hom hf) (fun s => by rw [flat_g hf, hc])
      (fun _ => mul_ne_zero h3.ne' (by norm_num)) hs xx mode cb
  refine ⟨hit, e, ?_⟩
  by_contra hfo
  rw [Bool.not_eq_false] at hfo
  obtain ⟨rfl, -⟩ := hit_iff.mp hfo
  obtain ⟨k, -, -, hk, -⟩ := hr
  have hstep : ∀ k, rz + z + tried (k + 1) * tl - h = (rz + z + best k * tl - h) * (1 - 1 / ((1 + α k) * (1 / 2))) := by
    intro k
    rw [R.step k]
    exact flat_step h3.ne' (by norm_num) (R.damping_pos k)
  have habs : ∀ k, α k ≤ 1 → |rz + z + tried (k + 1) * tl - h| = |rz + z + best k * tl - h| * ((1 - α k) / (1 + α k)) := by
    intro k hle
    have hα := R.damping_pos k
    have e : 1 - 1 / ((1 + α k) * (1 / 2)) = -((1 - α k) / (1 + α k)) := by
      field_simp
      ring
    rw [hstep k, e, abs_mul, abs_neg, abs_of_nonneg (div_nonneg (by linarith) (by linarith) : 0 ≤ (1 - α k) / (1 + α k))]
  have inv : ∀ k, α k ≤ 1 / 10 ∧ 1 / 2 + 2 * α k ≤ |rz + z + best k * tl - h| ∧ best k = tried k := by
    intro k
    induction k with
    | zero =>
      rw [R.start.2.2, R.start.2.1, R.start.1]
      exact ⟨by norm_num, le_trans (by norm_num) h1, rfl⟩
    | succ k ih =>
      obtain ⟨i1, i2, -⟩ := ih
      have hα := R.damping_pos k
      have ha := habs k (by linarith)
      have hp : 0 < |rz + z + best k * tl - h| := by linarith
      have hq : (1 - α k) / (1 + α k) < 1 := by rw [div_lt_one (by linarith)]; linarith
      have hlt : |rz + z + tried (k + 1) * tl - h| < |rz + z + best k * tl - h| := by
        rw [ha]; nlinarith
      obtain ⟨e1, e2⟩ := R.closer k hlt
      rw [e1, e2, ha]
      refine ⟨by linarith, ?_, rfl⟩
      have h2 : (1 / 2 + 2 * α k) * ((1 - α k) / (1 + α k)) ≤ |rz + z + best k * tl - h| * ((1 - α k) / (1 + α k)) :=
        mul_le_mul_of_nonneg_right i2 (div_nonneg (by linarith) (by linarith))
      refine le_trans ?_ h2
      rw [← mul_div_assoc (1 / 2 + 2 * α k), le_div_iff₀ (by linarith)]
      nlinarith
  obtain ⟨-, i2, i3⟩ := inv k
  rw [← i3] at hk
  have := R.damping_pos k
  dsimp only at hk
  linarith

/-- hypotheses of C112: such surfaces exist -/
example : ∃ surf : Surface, FlatAt 5 surf :=
  ⟨{ Example.disk with
      distance := fun p => p.z - fin 5
      normal := fun _ => V3.re 0 0 1 }, fun _ _ _ => rfl, fun _ => rfl⟩

end Verif
