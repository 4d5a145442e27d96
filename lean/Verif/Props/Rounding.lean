import Verif.Model.Rounding
import Mathlib.Tactic.Linarith
import Mathlib.Tactic.NormNum
import Mathlib.Tactic.Ring
import Mathlib.Tactic.FieldSimp
import Mathlib.Algebra.Order.Floor.Ring
import Mathlib.Algebra.Order.Round
import Mathlib.Algebra.Order.Archimedean.Real.Basic
import Mathlib.Data.Finset.Max
import Mathlib.Data.Set.Finite.Lemmas
import Mathlib.Order.Interval.Set.Infinite
import Mathlib.Data.Int.Interval

/-!
# Angles of `moveHelixTo` in rounded arithmetic: C97
-/

open Classical

noncomputable section

namespace Verif

namespace Rounded

variable {fl : ℝ → ℝ}

theorem rep_int {n : ℤ} (h : |n| ≤ 2 ^ 53) : Rep n := ⟨n, 1074, h, rfl⟩

theorem rep_neg {x : ℝ} (h : Rep x) : Rep (-x) := by
  obtain ⟨m, e, h1, h2⟩ := h
  exact ⟨-m, e, by rwa [abs_neg], by push_cast; rw [neg_mul, h2, neg_mul]⟩

theorem rep_dyadic {x : ℝ} (m : ℤ) (k : ℕ) (hk : k ≤ 1074) (hm : |m| ≤ 2 ^ 53) (h : x * 2 ^ k = m) : Rep x := by
  refine ⟨m, 1074 - k, hm, ?_⟩
  rw [← h, mul_assoc, ← pow_add, show k + (1074 - k) = 1074 by omega]

theorem rep_pi : Rep mPi := rep_dyadic 884279719003555 48 (by norm_num) (by norm_num) (by unfold mPi; norm_num)

theorem rep_half : Rep (mPi / 2) := rep_dyadic 884279719003555 49 (by norm_num) (by norm_num) (by unfold mPi; norm_num)

theorem rep_two : Rep (2 * mPi) := rep_dyadic 884279719003555 47 (by norm_num) (by norm_num) (by unfold mPi; norm_num)

theorem Nearest.fix (h : Nearest fl) {x : ℝ} (hx : Rep x) : fl x = x := by
  have := h.near x x hx
  rw [sub_self, abs_zero] at this
  exact sub_eq_zero.1 (abs_nonpos_iff.1 this)

theorem Nearest.mono (h : Nearest fl) {x y : ℝ} (hxy : x ≤ y) : fl x ≤ fl y := by
  rcases hxy.eq_or_lt with rfl | hlt
  · exact le_rfl
  by_contra hc
  have hc : fl y < fl x := lt_of_not_ge hc
  have h1 := h.near x (fl y) (h.rep y)
  have h2 := h.near y (fl x) (h.rep x)
  rw [abs_le] at h1
  rw [abs_le] at h2
  rcases le_total (fl y - x) 0 with a | a
  · rcases le_total (fl x - y) 0 with b | b
    · rw [abs_of_nonpos b] at h2; linarith [h2.1, h2.2]
    · rw [abs_of_nonpos a] at h1; rw [abs_of_nonneg b] at h2; linarith [h1.1, h1.2, h2.1, h2.2]
  · rw [abs_of_nonneg a] at h1; linarith [h1.1, h1.2]

/-- numbers up to 2^53 are rounded by at most one half -/
theorem Nearest.half (h : Nearest fl) {x : ℝ} (hx : |x| ≤ 2 ^ 53) : |fl x - x| ≤ 1 / 2 := by
  have hr : Rep (round x : ℤ) := by
    apply rep_int
    have h1 := abs_sub_round x
    rw [abs_le] at hx h1
    have h2 : (round x : ℝ) < 2 ^ 53 + 1 := by linarith [hx.2, h1.1]
    have h3 : -(2 ^ 53 + 1) < (round x : ℝ) := by linarith [hx.1, h1.2]
    have h2 : (round x : ℤ) < 2 ^ 53 + 1 := by exact_mod_cast h2
    have h3 : -(2 ^ 53 + 1) < (round x : ℤ) := by exact_mod_cast h3
    rw [abs_le]
    omega
  refine (h.near x _ hr).trans ?_
  rw [abs_sub_comm]
  exact abs_sub_round x

/-- there is such a rounding -/
theorem exists_nearest : ∃ fl, Nearest fl := by
  have key : ∀ x : ℝ, ∃ y, Rep y ∧ ∀ z, Rep z → |y - x| ≤ |z - x| := by
    intro x
    have hN : (0 : ℝ) < 2 ^ 1074 := by positivity
    generalize hM : (2 : ℝ) ^ 1074 = M at hN
    -- candidates, as multiples of the smallest number
    let S : Set ℤ := {k | Rep (k / M) ∧ |k / M - x| ≤ |x|}
    have hfin : S.Finite := by
      obtain ⟨n, hn⟩ := exists_nat_gt (2 * |x| * M)
      refine (Set.finite_Icc (-(n : ℤ)) n).subset ?_
      rintro k ⟨-, hk⟩
      have h1 : |(k : ℝ) / M| ≤ 2 * |x| := by
        have : (k : ℝ) / M = (k / M - x) + x := by ring
        rw [this]
        exact (abs_add_le _ _).trans (by linarith)
      rw [abs_div, abs_of_pos hN, div_le_iff₀ hN] at h1
      have h2 : |(k : ℝ)| ≤ n := by linarith
      rw [abs_le] at h2
      exact ⟨by exact_mod_cast h2.1, by exact_mod_cast h2.2⟩
    have hne : S.Nonempty := ⟨0, ⟨0, 0, by norm_num, by simp⟩, by simp⟩
    obtain ⟨k, hk, hmin⟩ := Set.exists_min_image S (fun k => |(k : ℝ) / M - x|) hfin hne
    refine ⟨k / M, hk.1, fun z hz => ?_⟩
    by_cases hc : |z - x| ≤ |x|
    · obtain ⟨m, e, h1, h2⟩ := hz
      rw [hM] at h2
      have hz' : z = ((m * 2 ^ e : ℤ) : ℝ) / M := by
        rw [eq_div_iff hN.ne', h2]; push_cast; rfl
      have := hmin (m * 2 ^ e) ⟨by rw [← hz']; exact ⟨m, e, h1, by rw [hM]; exact h2⟩, by rw [← hz']; exact hc⟩
      rwa [← hz'] at this
    · exact hk.2.trans (le_of_lt (lt_of_not_ge hc))
  choose f h1 h2 using key
  exact ⟨f, h1, h2⟩

theorem pi_bounds : 3 < mPi ∧ mPi < 3.2 := by unfold mPi; constructor <;> norm_num

theorem twoPi_eq (h : Nearest fl) : twoPi fl = 2 * mPi := h.fix rep_two

/-- a loop ends if every step brings the value closer to the end -/
theorem whileLoop_ends {cond : ℝ → Prop} {step : ℝ → ℝ} {P : ℝ → Prop} (μ : ℝ → ℝ) (hP : ∀ a, P a → cond a → P (step a))
    (hμ : ∀ a, P a → cond a → 0 ≤ μ a ∧ μ (step a) ≤ μ a - 1) {a : ℝ} (ha : P a) :
    ∃ b, whileLoop cond step a = .ok b ∧ P b ∧ ¬ cond b := by
  obtain ⟨n, hn⟩ := exists_nat_gt (μ a)
  induction n generalizing a with
  | zero =>
    by_cases hc : cond a
    · have := (hμ a ha hc).1
      rw [Nat.cast_zero] at hn
      linarith
    · exact ⟨a, whileLoop_of_not hc, ha, hc⟩
  | succ n ih =>
    by_cases hc : cond a
    · obtain ⟨b, h1, h2⟩ := ih (hP a ha hc) (by
        have := (hμ a ha hc).2
        push_cast at hn
        linarith)
      exact ⟨b, by rw [whileLoop_of_cond hc, h1], h2⟩
    · exact ⟨a, whileLoop_of_not hc, ha, hc⟩

/-- the two loops end for numbers up to 2^53, with a number in [0, 2π] -/
theorem norm02_ends (h : Nearest fl) {a : ℝ} (ha : |a| ≤ 2 ^ 53) : ∃ b, norm02 fl a = .ok b ∧ 0 ≤ b ∧ b ≤ 2 * mPi := by
  obtain ⟨p1, p2⟩ := pi_bounds
  have h8 : (8 : ℝ) ≤ 2 ^ 53 := by norm_num
  unfold norm02
  rw [twoPi_eq h]
  obtain ⟨b, b1, b2, b3⟩ := whileLoop_ends (cond := fun a => a < 0) (step := fun a => fl (a + 2 * mPi)) (P := fun a => |a| ≤ 2 ^ 53)
    (fun a => -a) (by
      intro a h1 h2
      rw [abs_le] at h1
      have := h.half (x := a + 2 * mPi) (by rw [abs_le]; constructor <;> linarith [h1.1])
      rw [abs_le] at this ⊢
      constructor <;> linarith [h1.1, this.1, this.2]) (by
      intro a h1 h2
      rw [abs_le] at h1
      have := h.half (x := a + 2 * mPi) (by rw [abs_le]; constructor <;> linarith [h1.1])
      rw [abs_le] at this
      constructor <;> linarith [this.1, this.2]) ha
  rw [b1, Out.ok_bind]
  have b3 : 0 ≤ b := not_lt.1 b3
  obtain ⟨c, c1, c2, c3⟩ := whileLoop_ends (cond := fun a => a > 2 * mPi) (step := fun a => fl (a - 2 * mPi))
    (P := fun a => 0 ≤ a ∧ |a| ≤ 2 ^ 53) (fun a => a) (by
      rintro a ⟨h0, h1⟩ h2
      rw [abs_le] at h1
      have h2 : 2 * mPi < a := h2
      have := h.half (x := a - 2 * mPi) (by rw [abs_le]; constructor <;> linarith [h1.2])
      have h3 : fl 0 ≤ fl (a - 2 * mPi) := h.mono (by linarith)
      rw [h.fix (x := 0) ⟨0, 0, by norm_num, by norm_num⟩] at h3
      refine ⟨h3, ?_⟩
      rw [abs_le] at this ⊢
      constructor <;> linarith [h1.2, this.1, this.2]) (by
      rintro a ⟨h0, h1⟩ h2
      rw [abs_le] at h1
      have h2 : 2 * mPi < a := h2
      have := h.half (x := a - 2 * mPi) (by rw [abs_le]; constructor <;> linarith [h1.2])
      rw [abs_le] at this
      exact ⟨h0, by linarith [this.1, this.2]⟩) ⟨b3, b2⟩
  exact ⟨c, c1, c2.1, not_lt.1 c3⟩

theorem endAngle_ends (h : Nearest fl) {a : ℝ} (h0 : 0 ≤ a) (h1 : a ≤ 2 * mPi) : ∃ b, endAngle fl a = .ok b ∧ -mPi ≤ b ∧ b ≤ mPi := by
  obtain ⟨p1, p2⟩ := pi_bounds
  have h8 : (100 : ℝ) ≤ 2 ^ 53 := by norm_num
  unfold endAngle
  rw [twoPi_eq h, h.fix rep_half]
  have ha : fl 0 ≤ fl (a + mPi / 2) := h.mono (by linarith)
  rw [h.fix (x := 0) ⟨0, 0, by norm_num, by norm_num⟩] at ha
  have hb := h.half (x := a + mPi / 2) (by rw [abs_le]; constructor <;> linarith)
  rw [abs_le] at hb
  rw [whileLoop_of_not (by linarith), Out.ok_bind]
  obtain ⟨c, c1, c2, c3⟩ := whileLoop_ends (cond := fun a => a > mPi) (step := fun a => fl (a - 2 * mPi))
    (P := fun a => -mPi ≤ a ∧ a ≤ 100) (fun a => a) (by
      rintro a ⟨h0, h1⟩ h2
      have h2 : mPi < a := h2
      have := h.half (x := a - 2 * mPi) (by rw [abs_le]; constructor <;> linarith)
      have h3 : fl (-mPi) ≤ fl (a - 2 * mPi) := h.mono (by linarith)
      rw [h.fix (rep_neg rep_pi)] at h3
      rw [abs_le] at this
      exact ⟨h3, by linarith [this.1, this.2]⟩) (by
      rintro a ⟨h0, h1⟩ h2
      have h2 : mPi < a := h2
      have := h.half (x := a - 2 * mPi) (by rw [abs_le]; constructor <;> linarith)
      rw [abs_le] at this
      exact ⟨by linarith, by linarith [this.1, this.2]⟩) (a := fl (a + mPi / 2)) ⟨by linarith, by linarith [hb.2]⟩
  exact ⟨c, c1, c2.1, not_lt.1 c3⟩

/-- `double`s above 2^59 are multiples of 64 -/
theorem rep_large {x : ℝ} (h : Rep x) (hx : 2 ^ 59 < |x|) : ∃ n : ℤ, x = 64 * n := by
  obtain ⟨m, e, h1, h2⟩ := h
  have he : 1080 ≤ e := by
    by_contra hc
    have hc : e ≤ 1079 := by omega
    have h3 : |x| * 2 ^ 1074 = |(m : ℝ)| * 2 ^ e := by
      have := congrArg abs h2
      rwa [abs_mul, abs_mul, abs_of_pos (show (0 : ℝ) < 2 ^ 1074 by positivity), abs_of_pos (show (0 : ℝ) < 2 ^ e by positivity)] at this
    have h4 : |(m : ℝ)| ≤ 2 ^ 53 := by exact_mod_cast h1
    have h5 : (2 : ℝ) ^ e ≤ 2 ^ 1079 := pow_le_pow_right₀ (by norm_num) hc
    have h6 : |(m : ℝ)| * 2 ^ e ≤ 2 ^ 53 * 2 ^ 1079 := mul_le_mul h4 h5 (by positivity) (by positivity)
    have h7 : (2 : ℝ) ^ 59 * 2 ^ 1074 < |x| * 2 ^ 1074 := mul_lt_mul_of_pos_right hx (by positivity)
    rw [h3] at h7
    rw [← pow_add] at h6 h7
    exact absurd (h7.trans_le h6) (not_lt.2 (pow_lt_pow_right₀ (by norm_num) (by norm_num)).le)
  obtain ⟨k, rfl⟩ := Nat.exists_eq_add_of_le he
  refine ⟨m * 2 ^ k, ?_⟩
  have h9 : (2 : ℝ) ^ 1074 ≠ 0 := by positivity
  apply mul_right_cancel₀ h9
  rw [h2]
  push_cast
  rw [pow_add, show (1080 : ℕ) = 6 + 1074 from rfl, pow_add]
  generalize (2 : ℝ) ^ 1074 = M
  ring

/-- adding or subtracting a small number does not change a large one -/
theorem stuck (h : Nearest fl) {a b : ℝ} (ha : Rep a) (hl : 2 ^ 60 ≤ |a|) (hb : |b| ≤ 8) : fl (a + b) = a := by
  have h1 := h.near (a + b) a ha
  have h2 : |a - (a + b)| ≤ 8 := by rw [show a - (a + b) = -b by ring, abs_neg]; exact hb
  have h3 : |fl (a + b) - a| ≤ 16 := by
    have : fl (a + b) - a = (fl (a + b) - (a + b)) + b := by ring
    rw [this]
    exact (abs_add_le _ _).trans (by linarith)
  have h4 : 2 ^ 59 < |fl (a + b)| := by
    have h5 : |a| ≤ |fl (a + b)| + 16 := by
      have : a = fl (a + b) - (fl (a + b) - a) := by ring
      calc |a| = |fl (a + b) - (fl (a + b) - a)| := by rw [← this]
        _ ≤ |fl (a + b)| + |fl (a + b) - a| := abs_sub _ _
        _ ≤ _ := by linarith
    have : (2 : ℝ) ^ 59 + 16 < 2 ^ 60 := by norm_num
    linarith
  obtain ⟨n, hn⟩ := rep_large ha (lt_of_lt_of_le (by norm_num) hl)
  obtain ⟨k, hk⟩ := rep_large (h.rep (a + b)) h4
  rw [hk, hn, ← mul_sub, abs_mul] at h3
  have h6 : |((k - n : ℤ) : ℝ)| < 1 := by
    push_cast
    rw [abs_of_pos (by norm_num : (0 : ℝ) < 64)] at h3
    linarith
  have h7 : |k - n| < 1 := by exact_mod_cast h6
  have h8 : k = n := by
    have := Int.abs_lt_one_iff.1 h7
    omega
  rw [hk, hn, h8]

end Rounded

open Rounded

/-- C97 for azimuths up to 2^52: the loops end, the angle of the move is in [-π, π] and so is the new azimuth, whatever the
rounding of ties and the value of the arcus tangens (up to 4). -/
theorem C97_partial {fl : ℝ → ℝ} (h : Nearest fl) {phi0 : ℝ} (hp : |phi0| ≤ 2 ^ 52) {atan2 : ℝ → ℝ} (ha : ∀ x, |atan2 x| ≤ 4) :
    ∃ fi0 fid phi, moveAngles fl phi0 atan2 = .ok (fi0, fid, phi) ∧ 0 ≤ fi0 ∧ fi0 ≤ 2 * mPi ∧ -mPi ≤ fid ∧ fid ≤ mPi ∧
      -mPi ≤ phi ∧ phi ≤ mPi := by
  obtain ⟨p1, p2⟩ := pi_bounds
  have h8 : (2 : ℝ) ^ 52 + 100 ≤ 2 ^ 53 := by norm_num
  have h9 : (0 : ℝ) ≤ 2 ^ 52 := by positivity
  unfold moveAngles
  rw [abs_le] at hp
  obtain ⟨fi0, a1, a2, a3⟩ : ∃ b, startAngle fl phi0 = .ok b ∧ 0 ≤ b ∧ b ≤ 2 * mPi := by
    unfold startAngle
    rw [h.fix rep_half]
    apply norm02_ends h
    have := h.half (x := phi0 - mPi / 2) (by rw [abs_le]; constructor <;> linarith [hp.1, hp.2])
    rw [abs_le] at this ⊢
    constructor <;> linarith [hp.1, hp.2, this.1, this.2]
  obtain ⟨fi0p, b1, b2, b3⟩ := norm02_ends h (a := atan2 fi0) ((ha fi0).trans (by norm_num))
  obtain ⟨fid, c1, c2, c3⟩ := norm02_ends h (a := fl (fi0p - fi0)) (by
    have := h.half (x := fi0p - fi0) (by rw [abs_le]; constructor <;> linarith)
    rw [abs_le] at this ⊢
    constructor <;> linarith [this.1, this.2])
  obtain ⟨phi, d1, d2, d3⟩ := endAngle_ends h b2 b3
  rw [a1, Out.ok_bind, b1, Out.ok_bind, c1, Out.ok_bind, d1, Out.ok_bind, twoPi_eq h]
  refine ⟨_, _, _, rfl, a2, a3, ?_, ?_, d2, d3⟩
  · split_ifs with hc
    · have := h.mono (show -mPi ≤ fid - 2 * mPi by linarith)
      rwa [h.fix (rep_neg rep_pi)] at this
    · linarith
  · split_ifs with hc
    · have := h.mono (show fid - 2 * mPi ≤ mPi by linarith)
      rwa [h.fix rep_pi] at this
    · exact not_lt.1 hc

/-- C97 is false: for an azimuth of 2^60 or more `moveHelixTo` never returns, because adding 2π does not change the number. -/
theorem C97_false {fl : ℝ → ℝ} (h : Nearest fl) {phi0 : ℝ} (hr : Rep phi0) (hp : 2 ^ 60 ≤ |phi0|) (atan2 : ℝ → ℝ) :
    moveAngles fl phi0 atan2 = .diverge := by
  obtain ⟨p1, p2⟩ := pi_bounds
  have hs : startAngle fl phi0 = .diverge := by
    unfold startAngle norm02
    rw [twoPi_eq h, h.fix rep_half, sub_eq_add_neg,
      stuck h hr hp (b := -(mPi / 2)) (by rw [abs_neg, abs_of_pos (by linarith)]; linarith)]
    have hb : |2 * mPi| ≤ 8 := by rw [abs_of_pos (by linarith)]; linarith
    rcases le_total 0 phi0 with h0 | h0
    · rw [whileLoop_of_not (cond := fun a => a < 0) (not_lt.2 h0), Out.ok_bind]
      apply whileLoop_diverge
      have hit : ∀ n : ℕ, (fun a => fl (a - 2 * mPi))^[n] phi0 = phi0 := by
        intro n
        apply Function.iterate_fixed
        show fl (phi0 - 2 * mPi) = phi0
        rw [sub_eq_add_neg]
        exact stuck h hr hp (by rwa [abs_neg])
      intro n
      rw [hit]
      rw [abs_of_nonneg h0] at hp
      have : (8 : ℝ) ≤ 2 ^ 60 := by norm_num
      show 2 * mPi < phi0
      linarith
    · have hneg : phi0 < 0 := by
        rw [abs_of_nonpos h0] at hp
        have : (8 : ℝ) ≤ 2 ^ 60 := by norm_num
        linarith
      have : whileLoop (fun a => a < 0) (fun a => fl (a + 2 * mPi)) phi0 = .diverge := by
        apply whileLoop_diverge
        have hit : ∀ n : ℕ, (fun a => fl (a + 2 * mPi))^[n] phi0 = phi0 := by
          intro n
          apply Function.iterate_fixed
          exact stuck h hr hp hb
        intro n
        rw [hit]
        exact hneg
      rw [this]
      rfl
  unfold moveAngles
  rw [hs]
  rfl

/-- both cases occur -/
example : ∃ fl, Nearest fl ∧ (∃ r, moveAngles fl 1 (fun _ => -1) = .ok r) ∧ moveAngles fl (2 ^ 60) (fun _ => -1) = .diverge := by
  obtain ⟨fl, h⟩ := exists_nearest
  obtain ⟨a, b, c, h1, -⟩ := C97_partial h (phi0 := 1) (by rw [abs_one]; norm_num) (atan2 := fun _ => -1) (by intro x; rw [abs_neg, abs_one]; norm_num)
  refine ⟨fl, h, ⟨_, h1⟩, C97_false h (⟨1, 1134, by norm_num, by rw [← pow_add]; push_cast; rw [one_mul]⟩) (by rw [abs_of_pos (by positivity)]) _⟩

end Verif
