import Verif.Model.RoundedNewton
import Verif.Lemmas.ErrorCalculus
import Verif.Props.SurfaceDispatch
import Mathlib.Analysis.Calculus.Deriv.MeanValue

/-!
# Lemmas for the Newton iteration in double precision
-/

open Classical

noncomputable section

namespace Verif

open Dbl

namespace Rnd

variable {fl : ℝ → ℝ} {lm : Libm} {atn : ℝ → ℝ}

/-! ### The loop -/

structure NewtonInvD (fl : ℝ → ℝ) (lm : Libm) (surf : Surface) (hp : V5) (rp : V3) (st : NewtonState) : Prop where
  cur : st.xx = pointAt fl lm st.s hp rp
  prev : st.prevXX = pointAt fl lm st.prevS hp rp
  small : st.done = some true → Dbl.abs (surf.distance st.xx) < newtonEps fl
  evals : st.evals = st.count
  count : st.count ≤ 101

theorem newtonInvD_step (surf : Surface) (hp : V5) (rp : V3) (st : NewtonState) (h : NewtonInvD fl lm surf hp rp st) (hd : st.done = none) :
    NewtonInvD fl lm surf hp rp (newtonStep fl lm atn surf hp rp st) ∧
      ((newtonStep fl lm atn surf hp rp st).done ≠ none ∨ (newtonStep fl lm atn surf hp rp st).count = st.count + 1) := by
  unfold newtonStep
  by_cases hc : st.count > 100
  · rw [if_pos hc]
    exact ⟨⟨h.prev, h.prev, by simp, h.evals, h.count⟩, Or.inl (by simp)⟩
  · rw [if_neg hc]
    dsimp only
    refine cif_cases (P := fun x : NewtonState => NewtonInvD fl lm surf hp rp x ∧ (x.done ≠ none ∨ x.count = st.count + 1))
      (fun h1 => ?_) (fun h1 => ?_)
    · exact ⟨⟨h.cur, h.prev, fun _ => h1, by simp [h.evals], by simp; omega⟩, Or.inl (by simp)⟩
    · by_cases h2 : Dbl.abs (surf.distance st.xx) < Dbl.abs st.prevDist
      · rw [cif_pos h2]
        exact ⟨⟨rfl, h.cur, by simp [hd], by simp [h.evals], by simp; omega⟩, Or.inr rfl⟩
      · rw [cif_neg h2]
        exact ⟨⟨rfl, h.prev, by simp [hd], by simp [h.evals], by simp; omega⟩, Or.inr rfl⟩

theorem newtonLoopD_ok (fl : ℝ → ℝ) (lm : Libm) (atn : ℝ → ℝ) (surf : Surface) (hp : V5) (rp : V3) (s : Dbl) :
    ∃ st, newtonLoop fl lm atn surf hp rp s = .ok st ∧ NewtonInvD fl lm surf hp rp st ∧ st.done ≠ none := by
  have key : ∀ n : ℕ, ∀ st : NewtonState, NewtonInvD fl lm surf hp rp st → 102 ≤ st.count + n →
      ∃ st', whileLoop (fun st => st.done = none) (newtonStep fl lm atn surf hp rp) st = .ok st' ∧
        NewtonInvD fl lm surf hp rp st' ∧ st'.done ≠ none := by
    intro n
    induction n with
    | zero => intro st h hn; exact absurd h.count (by omega)
    | succ n ih =>
      intro st h hn
      by_cases hd : st.done = none
      · rw [whileLoop_of_cond (a := st) hd]
        obtain ⟨h1, h2⟩ := newtonInvD_step (atn := atn) surf hp rp st h hd
        rcases h2 with h2 | h2
        · exact ⟨_, whileLoop_of_not h2, h1, h2⟩
        · exact ih _ h1 (by omega)
      · exact ⟨st, whileLoop_of_not hd, h, hd⟩
  exact key 102 _ ⟨rfl, rfl, by simp [newtonInit], rfl, by simp [newtonInit]⟩ (by simp [newtonInit])

/-! ### Constants -/

theorem round_near (h : NearestF 53 1074 fl) {t c : ℝ} (hc : |t| ≤ c) (h1 : 1 / 2 ^ 500 ≤ c) : |fl t - t| ≤ 1 / 2 ^ 52 * c := by
  have k := err_double h t
  have e : (1 : ℝ) / 2 ^ 1075 ≤ 1 / 2 ^ 53 * c := by
    refine le_trans ?_ (mul_le_mul_of_nonneg_left h1 (by positivity))
    rw [one_div_mul_one_div, ← pow_add]
    exact one_div_le_one_div_of_le (by positivity) (pow_le_pow_right₀ (by norm_num) (by norm_num))
  have k2 := mul_le_mul_of_nonneg_left hc (show (0 : ℝ) ≤ 1 / 2 ^ 53 by positivity)
  refine (k.trans (add_le_add k2 e)).trans (le_of_eq ?_)
  ring

theorem small_le {c : ℝ} (h : 1 / 2 ^ 60 ≤ c) : 1 / 2 ^ 500 ≤ c :=
  (one_div_le_one_div_of_le (by positivity) (pow_le_pow_right₀ (by norm_num) (by norm_num))).trans h

theorem newtonEps_near (h : NearestF 53 1074 fl) : ∃ e, newtonEps fl = fin e ∧ |e - 1 / 10000| ≤ 1 / 2 ^ 60 := by
  have k1 := round_near h (t := 1e-3) (c := 1e-3) (by rw [abs_of_pos (by norm_num)]) (small_le (by norm_num))
  have k2 := round_near h (t := 1 / 10) (c := 1 / 10) (by rw [abs_of_pos (by norm_num)]) (small_le (by norm_num))
  have e1 : rnd fl 1024 (1e-3 : Dbl) = fin (fl 1e-3) := by
    rw [ofSci_eq]
    exact rnd_small h (by norm_num)
  have e2 : mmD fl = fin (fl (1 / 10)) := rnd_small h (by rw [abs_of_pos (by norm_num)]; norm_num)
  unfold newtonEps
  rw [e1, e2, mulD, fin_mul]
  generalize fl 1e-3 = a at *
  generalize fl (1 / 10) = b at *
  have k3 : |a * b - 1 / 10000| ≤ 1 / 2 ^ 61 := by
    rw [abs_le] at k1 k2 ⊢
    norm_num at k1 k2 ⊢
    constructor <;> nlinarith
  have k4 := round_near h (t := a * b) (c := 2 / 10000) ((abs_near k3).trans (by rw [abs_of_pos (by norm_num)]; norm_num)) (small_le (by norm_num))
  refine ⟨fl (a * b), rnd_small h ((abs_near k3).trans (by rw [abs_of_pos (by norm_num)]; norm_num)), (near_trans k4 k3).trans ?_⟩
  norm_num

theorem alpha_next (h : NearestF 53 1074 fl) {α : ℝ} (hα : |α| ≤ 2e-10) : ∃ α', mulD fl (fin α) (alphaDecr fl) = fin α' ∧ |α'| ≤ 2e-10 := by
  have k2 := round_near h (t := 1 / 10) (c := 1 / 10) (by rw [abs_of_pos (by norm_num)]) (small_le (by norm_num))
  have e2 : alphaDecr fl = fin (fl (1 / 10)) := by
    unfold alphaDecr divD
    rw [one_eq, ofNat_eq, fin_div _ (by norm_num)]
    exact rnd_small h (by rw [abs_of_pos (by norm_num)]; norm_num)
  have k3 : |fl (1 / 10)| ≤ 1 / 5 := (abs_near k2).trans (by rw [abs_of_pos (by norm_num)]; norm_num)
  have k4 : |α * fl (1 / 10)| ≤ 1e-10 := by
    rw [abs_mul]
    refine (mul_le_mul hα k3 (abs_nonneg _) (by norm_num)).trans (by norm_num)
  rw [e2, mulD, fin_mul]
  refine ⟨_, rnd_small h (k4.trans (by norm_num)), ?_⟩
  have k5 := round_near h k4 (small_le (by norm_num))
  refine (abs_near k5).trans ((add_le_add k4 le_rfl).trans ?_)
  norm_num

theorem alpha_first (h : NearestF 53 1074 fl) : ∃ α, rnd fl 1024 (1e-10 : Dbl) = fin α ∧ |α| ≤ 2e-10 := by
  rw [ofSci_eq]
  refine ⟨_, rnd_small h (by norm_num), ?_⟩
  have k := round_near h (t := 1e-10) (c := 1e-10) (by rw [abs_of_pos (by norm_num)]) (small_le (by norm_num))
  refine (abs_near k).trans ?_
  rw [abs_of_pos (by norm_num)]
  norm_num

/-! ### One step -/

/-- a step is that of Newton's method, up to the rounding and the damping -/
theorem newton_advance (h : NearestF 53 1074 fl) {s d g α : ℝ} (hα : |α| ≤ 2e-10) (hg : 1 / 2 ^ 200 ≤ |g|) (hg2 : |g| ≤ 2 ^ 200)
    (hd : |d| ≤ 2 ^ 200) (hs : |s| ≤ 2 ^ 200) :
    ∃ s', subD fl (fin s) (divD fl (fin d) (mulD fl (addD fl 1 (fin α)) (fin g))) = fin s' ∧
      |s' - (s - d / g)| ≤ 1e-9 * |d / g| + 1 / 2 ^ 52 * |s| + 1 / 2 ^ 500 := by
  have g0 : 0 < |g| := lt_of_lt_of_le (by positivity) hg
  have gne := abs_pos.1 g0
  have ka : |1 + α - 1| ≤ 2e-10 := by rwa [add_sub_cancel_left]
  have kb := round_near h (t := 1 + α) (c := 2) ((abs_near ka).trans (by rw [abs_one]; norm_num)) (small_le (by norm_num))
  have ea : addD fl 1 (fin α) = fin (fl (1 + α)) := by
    rw [addD, one_eq, fin_add]
    exact rnd_small h ((abs_near ka).trans (by rw [abs_one]; norm_num))
  have kc : |fl (1 + α) - 1| ≤ 3e-10 := (near_trans kb ka).trans (by norm_num)
  rw [ea]
  generalize fl (1 + α) = a at kc
  have kd : |a * g - g| ≤ 3e-10 * |g| := by
    rw [show a * g - g = (a - 1) * g by ring, abs_mul]
    exact mul_le_mul_of_nonneg_right kc g0.le
  have ke : |a * g| ≤ 2 * |g| := (abs_near kd).trans (by linarith)
  have kf := round_near h (t := a * g) ke ((one_div_le_one_div_of_le (by positivity) (pow_le_pow_right₀ (by norm_num) (by norm_num))).trans (hg.trans (by linarith)))
  have eb : mulD fl (fin a) (fin g) = fin (fl (a * g)) := by
    rw [mulD, fin_mul]
    refine rnd_double h (ke.trans ?_)
    calc 2 * |g| ≤ 2 * 2 ^ 200 := by linarith
      _ ≤ _ := by rw [← pow_succ']; exact pow_le_pow_right₀ (by norm_num) (by norm_num)
  rw [eb]
  have kg : |fl (a * g) - g| ≤ 4e-10 * |g| := (near_trans kf kd).trans (by norm_num; linarith)
  generalize fl (a * g) = b at kg
  have kh : 9 / 10 * |g| ≤ |b| := by
    have k1 : |g - b| ≤ 4e-10 * |g| := by rw [abs_sub_comm]; exact kg
    have := abs_near k1
    linarith
  have b0 : 0 < |b| := lt_of_lt_of_le (by positivity) kh
  have bne := abs_pos.1 b0
  have ki : |d / b - d / g| ≤ 4.5e-10 * |d / g| := by
    rw [show d / b - d / g = d / g * ((g - b) / b) by field_simp, abs_mul, mul_comm]
    refine mul_le_mul_of_nonneg_right ?_ (abs_nonneg _)
    rw [abs_div, div_le_iff₀ b0, abs_sub_comm]
    linarith
  have hq : |d / g| ≤ 2 ^ 400 := by
    rw [abs_div, div_le_iff₀ g0]
    refine hd.trans ?_
    rw [show (2 : ℝ) ^ 400 = 2 ^ 200 * 2 ^ 200 by rw [← pow_add], mul_assoc]
    refine le_mul_of_one_le_right (by positivity) ?_
    rw [div_le_iff₀ (by positivity)] at hg
    linarith
  have kj : |d / b| ≤ 2 * |d / g| := (abs_near ki).trans (by linarith [abs_nonneg (d / g)])
  have ec : divD fl (fin d) (fin b) = fin (fl (d / b)) := by
    rw [divD, fin_div _ bne]
    refine rnd_double h (kj.trans ?_)
    calc 2 * |d / g| ≤ 2 * 2 ^ 400 := mul_le_mul_of_nonneg_left hq (by norm_num)
      _ ≤ _ := by rw [← pow_succ']; exact pow_le_pow_right₀ (by norm_num) (by norm_num)
  rw [ec]
  have kk := err_double h (d / b)
  have hη : (1 : ℝ) / 2 ^ 1075 ≤ 1 / 2 ^ 600 := one_div_le_one_div_of_le (by positivity) (pow_le_pow_right₀ (by norm_num) (by norm_num))
  have kl : |fl (d / b) - d / g| ≤ 4.6e-10 * |d / g| + 1 / 2 ^ 600 := by
    refine (near_trans kk ki).trans ?_
    have := mul_le_mul_of_nonneg_left kj (show (0 : ℝ) ≤ 1 / 2 ^ 53 by positivity)
    have k2 : (1 : ℝ) / 2 ^ 53 * (2 * |d / g|) ≤ 1e-12 * |d / g| := by
      rw [← mul_assoc]
      exact mul_le_mul_of_nonneg_right (by norm_num) (abs_nonneg _)
    linarith
  have h6 : (1 : ℝ) / 2 ^ 600 ≤ 1 := by
    rw [div_le_one (by positivity)]
    exact one_le_pow₀ (by norm_num)
  have km : |fl (d / b)| ≤ 2 * |d / g| + 1 / 2 ^ 600 := (abs_near kl).trans (by linarith [abs_nonneg (d / g)])
  generalize fl (d / b) = c at kl km
  have kn : |s - c| ≤ |s| + 2 * |d / g| + 1 / 2 ^ 600 := (abs_sub _ _).trans (by linarith)
  refine ⟨fl (s - c), ?_, ?_⟩
  · rw [subD, fin_sub]
    refine rnd_double h (kn.trans ?_)
    have h2 : (2 : ℝ) ^ 200 ≤ 2 ^ 400 := pow_le_pow_right₀ (by norm_num) (by norm_num)
    have h3 : (1 : ℝ) ≤ 2 ^ 400 := one_le_pow₀ (by norm_num)
    calc |s| + 2 * |d / g| + 1 / 2 ^ 600 ≤ 2 ^ 400 + 2 * 2 ^ 400 + 2 ^ 400 :=
          add_le_add (add_le_add (hs.trans h2) (mul_le_mul_of_nonneg_left hq (by norm_num))) (h6.trans h3)
      _ = 2 ^ 2 * 2 ^ 400 := by ring
      _ ≤ _ := by rw [← pow_add]; exact pow_le_pow_right₀ (by norm_num) (by norm_num)
  · have ko := err_double h (s - c)
    have kp : |s - c - (s - d / g)| ≤ 4.6e-10 * |d / g| + 1 / 2 ^ 600 := by
      rw [show s - c - (s - d / g) = -(c - d / g) by ring, abs_neg]
      exact kl
    refine (near_trans ko kp).trans ?_
    have kq := mul_le_mul_of_nonneg_left kn (show (0 : ℝ) ≤ 1 / 2 ^ 53 by positivity)
    have kr : (1 : ℝ) / 2 ^ 53 * |s| ≤ 1 / 2 ^ 52 * |s| := mul_le_mul_of_nonneg_right (by norm_num) (abs_nonneg _)
    have ks : (1 : ℝ) / 2 ^ 53 * (2 * |d / g|) ≤ 1e-12 * |d / g| := by
      rw [← mul_assoc]
      exact mul_le_mul_of_nonneg_right (by norm_num) (abs_nonneg _)
    have kt : (1 : ℝ) / 2 ^ 53 * (1 / 2 ^ 600) ≤ 1 / 2 ^ 600 := mul_le_of_le_one_left (by positivity) (by norm_num)
    have ku : 3 * ((1 : ℝ) / 2 ^ 600) ≤ 1 / 2 ^ 500 := by
      rw [show (2 : ℝ) ^ 600 = 2 ^ 100 * 2 ^ 500 by rw [← pow_add], mul_one_div, div_le_div_iff₀ (by positivity) (by positivity), one_mul]
      exact mul_le_mul_of_nonneg_right (by norm_num) (by positivity)
    generalize (1 : ℝ) / 2 ^ 600 = E at *
    generalize (1 : ℝ) / 2 ^ 500 = E2 at *
    generalize (1 : ℝ) / 2 ^ 1075 = E3 at *
    linarith [abs_nonneg (d / g)]

/-- between two points of an interval the derivative is that of the chord somewhere -/
theorem chord {D D' : ℝ → ℝ} {c R : ℝ} (hD : ∀ s, |s - c| ≤ R → HasDerivAt D (D' s) s) {a b : ℝ} (ha : |a - c| ≤ R) (hb : |b - c| ≤ R) :
    ∃ ξ, |ξ - c| ≤ R ∧ D b - D a = D' ξ * (b - a) := by
  have key : ∀ a b : ℝ, |a - c| ≤ R → |b - c| ≤ R → a < b → ∃ ξ, |ξ - c| ≤ R ∧ D b - D a = D' ξ * (b - a) := by
    intro a b ha hb hab
    rw [abs_le] at ha hb
    have hin : ∀ s ∈ Set.Icc a b, |s - c| ≤ R := fun s hs => by
      rw [abs_le]
      exact ⟨by linarith [hs.1], by linarith [hs.2]⟩
    obtain ⟨ξ, h1, h2⟩ := exists_hasDerivAt_eq_slope D D' hab (fun s hs => (hD s (hin s hs)).continuousAt.continuousWithinAt)
      (fun s hs => hD s (hin s (Set.Ioo_subset_Icc_self hs)))
    refine ⟨ξ, hin ξ (Set.Ioo_subset_Icc_self h1), ?_⟩
    rw [h2, div_mul_cancel₀ _ (by linarith)]
  rcases lt_trichotomy a b with hab | rfl | hab
  · exact key a b ha hb hab
  · exact ⟨a, ha, by ring⟩
  · obtain ⟨ξ, h1, h2⟩ := key b a hb ha hab
    exact ⟨ξ, h1, by linarith⟩

/-- a step with an approximate slope gets closer -/
theorem newton_contract {D D' : ℝ → ℝ} {c R : ℝ} (hD : ∀ s, |s - c| ≤ R → HasDerivAt D (D' s) s) (hc : D c = 0) {s d g s' : ℝ}
    (hs : |s - c| ≤ R) (hd : |d - D s| ≤ 1e-6) (g0 : 0 < |g|) (hg1 : 1e-5 ≤ |g| * R) (hg2 : |g| * (|c| + R) ≤ 1e9)
    (hg3 : ∀ t, |t - c| ≤ R → |D' t - g| ≤ 2 / 5 * |g|) {E : ℝ} (hE : |g| * E ≤ 1e-9)
    (hs' : |s' - (s - d / g)| ≤ 1e-9 * |d / g| + 1 / 2 ^ 52 * |s| + E) :
    |s' - c| ≤ R ∧ |D s'| ≤ 41 / 100 * |d| + 1.5e-6 := by
  have gne := abs_pos.1 g0
  have R0 : 0 ≤ R := (abs_nonneg _).trans hs
  obtain ⟨ξ, i1, i2⟩ := chord hD (a := c) (b := s) (by simpa using R0) hs
  rw [hc, sub_zero] at i2
  have i3 := hg3 ξ i1
  have i4 : |D' ξ| ≤ 7 / 5 * |g| := (abs_near i3).trans (by linarith)
  have hDs : |D s| ≤ 7 / 5 * |g| * |s - c| := by
    rw [i2, abs_mul]
    exact mul_le_mul_of_nonneg_right i4 (abs_nonneg _)
  have hd2 := abs_near hd
  have hsg : |g| * |s| ≤ 1e9 := by
    refine le_trans (mul_le_mul_of_nonneg_left ?_ g0.le) hg2
    have := abs_near hs
    linarith
  -- the error of the step
  have he : |g| * |s' - (s - d / g)| ≤ 1e-9 * |d| + 2.4e-7 := by
    refine (mul_le_mul_of_nonneg_left hs' g0.le).trans ?_
    have k1 : |g| * (1e-9 * |d / g|) = 1e-9 * |d| := by
      rw [abs_div]
      field_simp
    have k2 : |g| * (1 / 2 ^ 52 * |s|) ≤ 2.3e-7 := by
      rw [mul_left_comm]
      refine (mul_le_mul_of_nonneg_left hsg (by positivity)).trans ?_
      norm_num
    rw [mul_add, mul_add, k1]
    linarith
  have hX : |g| * |s - c| ≤ |g| * R := mul_le_mul_of_nonneg_left hs g0.le
  have hr : |s' - c| ≤ R := by
    have k1 : |g * (s - d / g - c)| ≤ 2 / 5 * (|g| * |s - c|) + 1e-6 := by
      have e : g * (s - d / g - c) = -((D' ξ - g) * (s - c)) - (d - D s) := by
        rw [i2]
        field_simp
        ring
      rw [e]
      refine (abs_sub _ _).trans ?_
      rw [abs_neg, abs_mul]
      have := mul_le_mul_of_nonneg_right i3 (abs_nonneg (s - c))
      linarith
    have k2 : |g| * |s' - c| ≤ |g| * |s' - (s - d / g)| + |g * (s - d / g - c)| := by
      rw [abs_mul, ← mul_add]
      exact mul_le_mul_of_nonneg_left (abs_sub_le _ _ _) g0.le
    have k3 : |g| * |s' - c| ≤ |g| * R := by
      norm_num at *
      linarith
    exact le_of_mul_le_mul_left k3 g0
  refine ⟨hr, ?_⟩
  obtain ⟨ξ', j1, j2⟩ := chord hD hs hr
  have j3 := hg3 ξ' j1
  have j4 : |D' ξ'| ≤ 7 / 5 * |g| := (abs_near j3).trans (by linarith)
  have e : D s' = (D s - d) + d * ((g - D' ξ') / g) + D' ξ' * (s' - (s - d / g)) := by
    have : D s' = D s + D' ξ' * (s' - s) := by linarith
    rw [this]
    field_simp
    ring
  have k1 : |d * ((g - D' ξ') / g)| ≤ 2 / 5 * |d| := by
    rw [abs_mul, abs_div, mul_comm]
    refine mul_le_mul_of_nonneg_right ?_ (abs_nonneg _)
    rw [div_le_iff₀ g0, abs_sub_comm]
    exact j3
  have k2 : |D' ξ' * (s' - (s - d / g))| ≤ 7 / 5 * (1e-9 * |d| + 2.4e-7) := by
    rw [abs_mul]
    refine (mul_le_mul_of_nonneg_right j4 (abs_nonneg _)).trans ?_
    rw [mul_assoc]
    exact mul_le_mul_of_nonneg_left he (by norm_num)
  rw [e]
  refine (abs_add_le _ _).trans ((add_le_add (abs_add_le _ _) le_rfl).trans ?_)
  rw [abs_sub_comm (D s)]
  norm_num at *
  linarith [abs_nonneg d]

/-- what is needed for the search: `D` is the distance along the track, with a zero at `c`, and `D'` its derivative; the distance computed by the
surface is accurate to 1e-6, and the computed slopes at path lengths up to `R` away from `c` are close to all derivatives there -/
structure SearchRange (fl : ℝ → ℝ) (lm : Libm) (atn : ℝ → ℝ) (surf : Surface) (hp : V5) (rp : V3) (D D' : ℝ → ℝ) (c R : ℝ) : Prop where
  lo : 1 / 2 ^ 100 ≤ R
  hi : R ≤ 2 ^ 100
  deriv : ∀ s, |s - c| ≤ R → HasDerivAt D (D' s) s
  zero : D c = 0
  dist : ∀ s, |s - c| ≤ R → ∃ d, surf.distance (pointAt fl lm (fin s) hp rp) = fin d ∧ |d - D s| ≤ 1e-6
  slope : ∀ s, |s - c| ≤ R → ∃ g, dotV fl (surf.normal (pointAt fl lm (fin s) hp rp)) (calculateTangent fl lm atn (fin s) hp) = fin g ∧
    1e-5 ≤ |g| * R ∧ |g| * (|c| + R) ≤ 1e9 ∧ ∀ t, |t - c| ≤ R → |D' t - g| ≤ 2 / 5 * |g|

/-- the variables before the evaluation of the distance, if all steps so far were accepted -/
structure Approach (fl : ℝ → ℝ) (lm : Libm) (surf : Surface) (hp : V5) (rp : V3) (c R : ℝ) (n : ℕ) (st : NewtonState) : Prop where
  count : st.count = n
  open' : st.done = none
  val : ∃ s d p α, st.s = fin s ∧ |s - c| ≤ R ∧ st.xx = pointAt fl lm (fin s) hp rp ∧ surf.distance st.xx = fin d ∧ st.prevDist = fin p ∧
    st.alpha = fin α ∧ |α| ≤ 2e-10 ∧ |d| < |p| ∧ |d| ≤ 10 ^ 10 / 2 ^ n

theorem approach_step (h : NearestF 53 1074 fl) {surf : Surface} {hp : V5} {rp : V3} {D D' : ℝ → ℝ} {c R : ℝ}
    (H : SearchRange fl lm atn surf hp rp D D' c R) {n : ℕ} (hn : n ≤ 100) {st : NewtonState} (hst : Approach fl lm surf hp rp c R n st) :
    (newtonStep fl lm atn surf hp rp st = { st with count := n + 1, evals := st.evals + 1, done := some true } ∧
      Dbl.abs (surf.distance st.xx) < newtonEps fl) ∨
    n < 100 ∧ Approach fl lm surf hp rp c R (n + 1) (newtonStep fl lm atn surf hp rp st) := by
  obtain ⟨e, e1, e2⟩ := newtonEps_near h
  have e3 : 0.99e-4 ≤ e := by
    rw [abs_le] at e2
    norm_num at e2 ⊢
    linarith [e2.1]
  obtain ⟨s, d, p, α, a1, a2, a3, a4, a5, a6, a7, a8, a9⟩ := hst.val
  have b0 : ¬ st.count > 100 := by rw [hst.count]; omega
  by_cases hd : |d| < e
  · left
    have hlt : Dbl.abs (surf.distance st.xx) < newtonEps fl := by
      rw [a4, abs_fin, e1, fin_lt]
      exact hd
    refine ⟨?_, hlt⟩
    unfold newtonStep
    rw [if_neg b0]
    dsimp only
    rw [cif_pos hlt, hst.count]
  · right
    have hn' : n < 100 := by
      by_contra hc
      obtain rfl : n = 100 := by omega
      norm_num at a9 e3
      linarith
    refine ⟨hn', ?_⟩
    obtain ⟨g, g1, g2, g3, g4⟩ := H.slope s a2
    obtain ⟨d', d1, d2⟩ := H.dist s a2
    rw [a3, d1, fin_inj] at a4
    subst a4
    obtain ⟨α', b1, b2⟩ := alpha_next h a7
    have R0 : 0 < R := lt_of_lt_of_le (by positivity) H.lo
    have g0 : 0 < |g| := by
      by_contra hc
      have : |g| = 0 := le_antisymm (not_lt.1 hc) (abs_nonneg _)
      rw [this, zero_mul] at g2
      norm_num at g2
    have glo : 1 / 2 ^ 200 ≤ |g| := by
      have k := mul_le_mul_of_nonneg_left H.hi g0.le
      have k2 : (1 : ℝ) / 2 ^ 200 * 2 ^ 100 ≤ |g| * 2 ^ 100 := le_trans (by norm_num) (g2.trans k)
      exact le_of_mul_le_mul_right k2 (by positivity)
    have ghi : |g| ≤ 2 ^ 200 := by
      have k := mul_le_mul_of_nonneg_left H.lo g0.le
      have k2 : |g| * R ≤ 1e9 := le_trans (mul_le_mul_of_nonneg_left (by linarith [abs_nonneg c]) g0.le) g3
      have k3 : |g| * (1 / 2 ^ 100) ≤ 2 ^ 200 * (1 / 2 ^ 100) := (k.trans k2).trans (by norm_num)
      exact le_of_mul_le_mul_right k3 (by positivity)
    have shi : |s| ≤ 2 ^ 200 := by
      have k1 : |s| ≤ |c| + R := (abs_near a2).trans (by linarith)
      refine k1.trans ?_
      have k : 1e-5 * (|c| + R) ≤ |g| * R * (|c| + R) := mul_le_mul_of_nonneg_right g2 (by positivity)
      have k2 : |g| * R * (|c| + R) ≤ R * 1e9 := by
        rw [mul_comm |g|, mul_assoc]
        exact mul_le_mul_of_nonneg_left g3 R0.le
      have k3 : R * 1e9 ≤ 2 ^ 100 * 1e9 := mul_le_mul_of_nonneg_right H.hi (by norm_num)
      norm_num at *
      linarith
    have dhi : |d'| ≤ 2 ^ 200 := by
      refine a9.trans ((div_le_self (by positivity) (one_le_pow₀ (by norm_num))).trans ?_)
      norm_num
    obtain ⟨s', c1, c2⟩ := newton_advance h (s := s) (d := d') b2 glo ghi dhi shi
    have hE : |g| * (1 / 2 ^ 500) ≤ 1e-9 := by
      refine (mul_le_mul_of_nonneg_right ghi (by positivity)).trans ?_
      rw [show (2 : ℝ) ^ 500 = 2 ^ 200 * 2 ^ 300 by rw [← pow_add]]
      rw [mul_one_div, div_le_iff₀ (by positivity)]
      have : (1 : ℝ) ≤ 1e-9 * 2 ^ 300 := by
        calc (1 : ℝ) ≤ 1e-9 * 2 ^ 30 := by norm_num
          _ ≤ _ := mul_le_mul_of_nonneg_left (pow_le_pow_right₀ (by norm_num) (by norm_num)) (by norm_num)
      calc (2 : ℝ) ^ 200 = 2 ^ 200 * 1 := by rw [mul_one]
        _ ≤ 2 ^ 200 * (1e-9 * 2 ^ 300) := mul_le_mul_of_nonneg_left this (by positivity)
        _ = _ := by ring
    obtain ⟨f1, f2⟩ := newton_contract H.deriv H.zero a2 d2 g0 g2 g3 g4 hE c2
    obtain ⟨d'', f3, f4⟩ := H.dist s' f1
    have f5 : |d''| ≤ |d'| / 2 := by
      have := abs_near f4
      norm_num at *
      linarith
    have hst' : newtonStep fl lm atn surf hp rp st = ⟨fin s', pointAt fl lm (fin s') hp rp, st.xx, st.s, fin d', fin α', n + 1, none, st.evals + 1⟩ := by
      unfold newtonStep
      rw [if_neg b0]
      dsimp only
      rw [a3, d1, abs_fin, e1, cif_neg (by rw [fin_lt]; exact hd), a5, abs_fin, cif_pos (by rw [fin_lt]; exact a8)]
      dsimp only
      rw [a6, b1, a1, g1, c1, hst.count, hst.open']
    rw [hst']
    refine ⟨rfl, rfl, s', d'', d', α', rfl, f1, rfl, f3, rfl, rfl, b2, ?_, ?_⟩
    · norm_num at e3
      have : 0 < |d'| := by linarith
      linarith
    · rw [pow_succ (2 : ℝ) n, ← div_div]
      linarith

theorem approach_loop (h : NearestF 53 1074 fl) {surf : Surface} {hp : V5} {rp : V3} {D D' : ℝ → ℝ} {c R : ℝ}
    (H : SearchRange fl lm atn surf hp rp D D' c R) {s0 d0 : ℝ} (hs : |s0 - c| ≤ R)
    (hd : surf.distance (pointAt fl lm (fin s0) hp rp) = fin d0) (hd0 : |d0| < 10 ^ 10) :
    ∃ st s, newtonLoop fl lm atn surf hp rp (fin s0) = .ok st ∧ st.done = some true ∧ st.s = fin s ∧ st.xx = pointAt fl lm (fin s) hp rp ∧
      |s - c| ≤ R ∧ Dbl.abs (surf.distance st.xx) < newtonEps fl := by
  have key : ∀ m n : ℕ, n + m = 100 → ∀ st, Approach fl lm surf hp rp c R n st →
      ∃ st' s, whileLoop (fun st => st.done = none) (newtonStep fl lm atn surf hp rp) st = .ok st' ∧ st'.done = some true ∧ st'.s = fin s ∧
        st'.xx = pointAt fl lm (fin s) hp rp ∧ |s - c| ≤ R ∧ Dbl.abs (surf.distance st'.xx) < newtonEps fl := by
    intro m
    induction m with
    | zero =>
      intro n hn st hst
      rw [whileLoop_of_cond (a := st) hst.open']
      rcases approach_step h H (by omega) hst with ⟨e, hlt⟩ | ⟨hc, -⟩
      · obtain ⟨s, d, p, α, a1, a2, a3, -⟩ := hst.val
        rw [e, whileLoop_of_not (by simp)]
        exact ⟨_, s, rfl, rfl, a1, a3, a2, hlt⟩
      · omega
    | succ m ih =>
      intro n hn st hst
      rw [whileLoop_of_cond (a := st) hst.open']
      rcases approach_step h H (by omega) hst with ⟨e, hlt⟩ | ⟨hc, hnext⟩
      · obtain ⟨s, d, p, α, a1, a2, a3, -⟩ := hst.val
        rw [e, whileLoop_of_not (by simp)]
        exact ⟨_, s, rfl, rfl, a1, a3, a2, hlt⟩
      · exact ih (n + 1) (by omega) _ hnext
  obtain ⟨α, b1, b2⟩ := alpha_first h
  refine key 100 0 rfl _ ⟨rfl, rfl, s0, d0, 10 ^ 10, α, rfl, hs, rfl, hd, ?_, b1, b2, ?_, ?_⟩
  · unfold newtonInit
    rw [ofSci_eq]
    norm_num
  · rwa [abs_of_pos (by positivity : (0 : ℝ) < 10 ^ 10)]
  · rw [pow_zero, div_one]
    exact hd0.le

/-! ### The tangent -/

theorem atan_ap (ha : IsAtan atn) (t : ℝ) : Ap 0 1 (atanD fl atn (fin t)) (Dbl.atan (fin t)) 2 5 := by
  have k1 : |Real.arctan t| ≤ 2 := by
    have h1 := Real.arctan_lt_pi_div_two t
    have h2 := Real.neg_pi_div_two_lt_arctan t
    have := Real.pi_lt_four
    rw [abs_le]
    constructor <;> linarith
  refine ⟨by norm_num, by norm_num, atn t, Real.arctan t, rfl, rfl, ?_, by rwa [mul_one]⟩
  refine (lib_err (ha t)).trans ?_
  have k2 : 2 * ((1 : ℝ) / 2 ^ 1075) ≤ 1 / 2 ^ 53 := by
    rw [show (2 : ℝ) ^ 1075 = 2 ^ 1022 * 2 ^ 53 by rw [← pow_add], mul_one_div, div_le_div_iff₀ (by positivity) (by positivity)]
    rw [one_mul]
    refine mul_le_mul_of_nonneg_right ?_ (by positivity)
    calc (2 : ℝ) = 2 ^ 1 := by norm_num
      _ ≤ _ := pow_le_pow_right₀ (by norm_num) (by norm_num)
  have := mul_le_mul_of_nonneg_left k1 (show (0 : ℝ) ≤ 2 * (1 / 2 ^ 53) by positivity)
  generalize (1 : ℝ) / 2 ^ 1075 = E at *
  linarith

theorem angle_ap (h : NearestF 53 1074 fl) {ph om s : ℝ} (hp : |ph| ≤ 2 ^ 30) (ho : |om * s| ≤ 2 ^ 30) :
    Ap 0 1 (subD fl (fin ph) (mulD fl (fin om) (fin s))) (fin ph - fin om * fin s) (|ph| + |om * s|) (|ph| + 2 * |om * s| + 2 / 1000) := by
  have k1 : Ap 0 1 (mulD fl (fin om) (fin s)) (fin om * fin s) |om * s| (0 + |om * s| + 1 / 1000) := by
    rw [mulD, fin_mul]
    exact Ap.round h (by norm_num) (by norm_num) (by norm_num) (by norm_num) (ho.trans (by norm_num)) (by simp) (by rw [mul_one])
  refine (Ap.sub h (Ap.unit le_rfl) k1 (by norm_num) (by norm_num at *; linarith) (by norm_num at *; linarith)).mono le_rfl ?_
  linarith

end Rnd

end Verif
