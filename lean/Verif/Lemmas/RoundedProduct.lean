import Verif.Lemmas.RoundedConversion
import Verif.Props.RoundedMove

/-!
# Rounding errors of sums and of products of matrices, added in any order
-/

open Classical

noncomputable section

namespace Verif

open Dbl Spec

namespace Rnd

variable {fl : ℝ → ℝ}

/-- sums of at most eight numbers, in whatever order -/
theorem sum_near (h : NearestF 53 1074 fl) {l : List Dbl} {a : Dbl} (hs : SumOf fl l a) :
    ∀ x : List ℝ, l = x.map fin → (x.map fun t => |t|).sum ≤ 2 ^ 900 → x.length ≤ 8 → ∃ s, a = fin s ∧ 1 ≤ x.length ∧
      |s - x.sum| ≤ (x.length - 1) * (101 / 100 * (1 / 2 ^ 53 * (x.map fun t => |t|).sum + 1 / 2 ^ 1075)) := by
  have v1 : (1 : ℝ) / 2 ^ 53 ≤ 1 / 1000000 := by norm_num
  have v0 : (0 : ℝ) ≤ 1 / 2 ^ 53 := by positivity
  have η0 : (0 : ℝ) ≤ 1 / 2 ^ 1075 := by positivity
  induction hs with
  | one a =>
    intro x e _ _
    obtain ⟨t, rfl⟩ : ∃ t, x = [t] := by
      match x, e with
      | [t], _ => exact ⟨t, rfl⟩
    simp only [List.map_cons, List.map_nil, List.cons.injEq, and_true] at e
    exact ⟨t, e, by simp, by simp⟩
  | @add l m a b _ _ ih1 ih2 =>
    intro x e hx hn
    obtain ⟨y, z, rfl, rfl, rfl⟩ : ∃ y z, x = y ++ z ∧ l = y.map fin ∧ m = z.map fin := by
      obtain ⟨y, z, h1, h2, h3⟩ := List.map_eq_append_iff.1 e.symm
      exact ⟨y, z, h1, h2.symm, h3.symm⟩
    rw [List.map_append, List.sum_append] at hx ⊢
    rw [List.length_append] at hn ⊢
    rw [List.sum_append]
    have p1 : ∀ w : List ℝ, 0 ≤ (w.map fun t => |t|).sum := fun w => List.sum_nonneg (by simp)
    have p2 : ∀ w : List ℝ, |w.sum| ≤ (w.map fun t => |t|).sum := fun w => by
      induction w with
      | nil => simp
      | cons t w ih =>
        rw [List.sum_cons, List.map_cons, List.sum_cons]
        exact (abs_add_le _ _).trans (add_le_add_right ih _)
    have y0 := p1 y
    have z0 := p1 z
    obtain ⟨s, rfl, n1, e1⟩ := ih1 y rfl (by linarith) (by omega)
    obtain ⟨t, rfl, n2, e2⟩ := ih2 z rfl (by linarith) (by omega)
    have y1 := p2 y
    have z1 := p2 z
    have n1' : (1 : ℝ) ≤ y.length := by exact_mod_cast n1
    have n2' : (1 : ℝ) ≤ z.length := by exact_mod_cast n2
    have n3 : ((y.length : ℝ) + z.length) ≤ 8 := by exact_mod_cast hn
    generalize (y.map fun t => |t|).sum = A at *
    generalize (z.map fun t => |t|).sum = B at *
    push_cast
    generalize (y.length : ℝ) = p at *
    generalize (z.length : ℝ) = q at *
    have er := err_double h (s + t)
    have eq : |s + t - (y.sum + z.sum)| ≤ (p + q - 2) * (101 / 100 * (1 / 2 ^ 53 * (A + B) + 1 / 2 ^ 1075)) := by
      rw [show s + t - (y.sum + z.sum) = (s - y.sum) + (t - z.sum) by ring]
      refine (abs_add_le _ _).trans ((add_le_add e1 e2).trans ?_)
      have k1 : (p - 1) * (101 / 100 * (1 / 2 ^ 53 * A + 1 / 2 ^ 1075)) ≤ (p - 1) * (101 / 100 * (1 / 2 ^ 53 * (A + B) + 1 / 2 ^ 1075)) := by
        refine mul_le_mul_of_nonneg_left (mul_le_mul_of_nonneg_left (add_le_add_left (mul_le_mul_of_nonneg_left (by linarith) v0) _) (by norm_num)) (by linarith)
      have k2 : (q - 1) * (101 / 100 * (1 / 2 ^ 53 * B + 1 / 2 ^ 1075)) ≤ (q - 1) * (101 / 100 * (1 / 2 ^ 53 * (A + B) + 1 / 2 ^ 1075)) := by
        refine mul_le_mul_of_nonneg_left (mul_le_mul_of_nonneg_left (add_le_add_left (mul_le_mul_of_nonneg_left (by linarith) v0) _) (by norm_num)) (by linarith)
      linarith
    have E0 : 0 ≤ 101 / 100 * ((1 : ℝ) / 2 ^ 53 * (A + B) + 1 / 2 ^ 1075) := by positivity
    have E1 : (1 : ℝ) / 2 ^ 53 * (A + B) ≤ 1 / 1000000 * (A + B) := mul_le_mul_of_nonneg_right v1 (by linarith)
    have big : |s + t| ≤ A + B + 6 * (101 / 100 * (1 / 2 ^ 53 * (A + B) + 1 / 2 ^ 1075)) := by
      have k1 := abs_near eq
      have k2 := abs_add_le y.sum z.sum
      have k3 : (p + q - 2) * (101 / 100 * (1 / 2 ^ 53 * (A + B) + 1 / 2 ^ 1075)) ≤ 6 * (101 / 100 * (1 / 2 ^ 53 * (A + B) + 1 / 2 ^ 1075)) :=
        mul_le_mul_of_nonneg_right (by linarith) E0
      linarith
    have η1 : (1 : ℝ) / 2 ^ 1075 ≤ 1 := by
      rw [div_le_one (by positivity)]
      exact one_le_pow₀ (by norm_num)
    have b2 : |s + t| ≤ 2 ^ 1000 := by
      have k : (12 : ℝ) * 2 ^ 900 ≤ 2 ^ 1000 := by
        rw [show (2 : ℝ) ^ 1000 = 2 ^ 100 * 2 ^ 900 by rw [← pow_add]]
        exact mul_le_mul_of_nonneg_right (by norm_num) (by positivity)
      have k2 : (1 : ℝ) ≤ 2 ^ 900 := one_le_pow₀ (by norm_num)
      refine le_trans ?_ k
      clear ih1 ih2 k er
      generalize (2 : ℝ) ^ 900 = X at *
      generalize (1 : ℝ) / 2 ^ 1075 = η at *
      generalize 1 / 2 ^ 53 * (A + B) = D at *
      linarith
    refine ⟨fl (s + t), by rw [addD, fin_add, rnd_double h b2], by omega, ?_⟩
    have fin1 := near_trans er eq
    refine fin1.trans ?_
    have k4 := mul_le_mul_of_nonneg_left big v0
    have k5 : 1 / 2 ^ 53 * (6 * (101 / 100 * (1 / 2 ^ 53 * (A + B) + 1 / 2 ^ 1075))) ≤ 1 / 100 * (1 / 2 ^ 53 * (A + B) + 1 / 2 ^ 1075) := by
      have := mul_le_mul_of_nonneg_right v1 (show 0 ≤ 6 * (101 / 100 * ((1 : ℝ) / 2 ^ 53 * (A + B) + 1 / 2 ^ 1075)) by positivity)
      linarith
    rw [mul_add] at k4
    generalize (1 : ℝ) / 2 ^ 1075 = η at *
    generalize 1 / 2 ^ 53 * (A + B) = D at *
    linarith
  | @perm l m a hp _ ih =>
    intro x e hx hn
    subst e
    obtain ⟨y, hy, rfl⟩ : ∃ y : List ℝ, y.Perm x ∧ l = y.map fin := by
      let g : Dbl → ℝ := fun d => match d with
        | fin t => t
        | _ => 0
      have hg : (x.map fin).map g = x := by
        rw [List.map_map]
        exact List.map_id x
      have p := hp.map g
      rw [hg] at p
      refine ⟨l.map g, p, ?_⟩
      rw [List.map_map]
      have : ∀ d ∈ l, (fin ∘ g) d = id d := by
        intro d hd
        obtain ⟨t, -, rfl⟩ := List.mem_map.1 (hp.mem_iff.1 hd)
        rfl
      rw [List.map_congr_left this, List.map_id]
    have e1 : (y.map fun t => |t|).sum = (x.map fun t => |t|).sum := (hy.map _).sum_eq
    obtain ⟨s, h1, h2, h3⟩ := ih y rfl (by rw [e1]; exact hx) (by rw [hy.length_eq]; exact hn)
    rw [hy.length_eq] at h2
    rw [e1, hy.sum_eq, hy.length_eq] at h3
    exact ⟨s, h1, h2, h3⟩

/-- a sum of five products -/
theorem entry_sum (h : NearestF 53 1074 fl) {x y : Fin 5 → ℝ} (hb : ∀ k, |x k| * |y k| ≤ 2 ^ 800) {a : Dbl}
    (hs : SumOf fl ((List.finRange 5).map fun k => mulD fl (fin (x k)) (fin (y k))) a) :
    ∃ s, a = fin s ∧ |s - ∑ k, x k * y k| ≤ 51 / 10 * (1 / 2 ^ 53) * ∑ k, |x k| * |y k| + 10 * (1 / 2 ^ 1075) := by
  have v1 : (1 : ℝ) / 2 ^ 53 ≤ 1 / 1000000 := by norm_num
  have v0 : (0 : ℝ) ≤ 1 / 2 ^ 53 := by positivity
  have η0 : (0 : ℝ) ≤ 1 / 2 ^ 1075 := by positivity
  have hk : ∀ k, mulD fl (fin (x k)) (fin (y k)) = fin (fl (x k * y k)) := fun k => by
    have : |x k * y k| ≤ 2 ^ 1000 := by
      rw [abs_mul]
      exact (hb k).trans (pow_le_pow_right₀ (by norm_num) (by norm_num))
    rw [mulD, fin_mul, rnd_double h this]
  have er : ∀ k, |fl (x k * y k) - x k * y k| ≤ 1 / 2 ^ 53 * (|x k| * |y k|) + 1 / 2 ^ 1075 := fun k => by
    rw [← abs_mul]
    exact err_double h _
  have sz : ∀ k, |fl (x k * y k)| ≤ 2 ^ 801 := fun k => by
    have := h.double (x k * y k)
    rw [abs_mul (x k)] at this
    rw [pow_succ]
    linarith [hb k]
  rw [List.map_congr_left (fun k _ => hk k)] at hs
  obtain ⟨s, e1, -, e2⟩ := sum_near h hs ((List.finRange 5).map fun k => fl (x k * y k)) (by rw [List.map_map]; rfl)
    (by
      have : (2 : ℝ) ^ 801 * 5 ≤ 2 ^ 900 := by
        rw [show (2 : ℝ) ^ 900 = 2 ^ 801 * 2 ^ 99 by rw [← pow_add]]
        exact mul_le_mul_of_nonneg_left (by norm_num) (by positivity)
      refine le_trans ?_ this
      have s0 := sz 0
      have s1 := sz 1
      have s2 := sz 2
      have s3 := sz 3
      have s4 := sz 4
      rw [List.map_map, ← List.ofFn_eq_map, List.sum_ofFn, Fin.sum_univ_five]
      simp only [Function.comp]
      linarith) (by simp)
  refine ⟨s, e1, ?_⟩
  rw [List.map_map, ← List.ofFn_eq_map, ← List.ofFn_eq_map, List.sum_ofFn, List.sum_ofFn, List.length_ofFn] at e2
  rw [Fin.sum_univ_five] at *
  rw [Fin.sum_univ_five] at *
  simp only [Function.comp] at e2
  have q := fun k => abs_near (er k)
  have w := fun k => (show |x k * y k| = |x k| * |y k| from abs_mul _ _)
  have d := fun k => mul_nonneg (abs_nonneg (x k)) (abs_nonneg (y k))
  have r0 := er 0
  have r1 := er 1
  have r2 := er 2
  have r3 := er 3
  have r4 := er 4
  have q0 := q 0
  have q1 := q 1
  have q2 := q 2
  have q3 := q 3
  have q4 := q 4
  have d0 := d 0
  have d1 := d 1
  have d2 := d 2
  have d3 := d 3
  have d4 := d 4
  rw [w] at q0 q1 q2 q3 q4
  push_cast at e2
  generalize fl (x 0 * y 0) = p0 at *
  generalize fl (x 1 * y 1) = p1 at *
  generalize fl (x 2 * y 2) = p2 at *
  generalize fl (x 3 * y 3) = p3 at *
  generalize fl (x 4 * y 4) = p4 at *
  clear er sz hs hk q w d hb
  generalize |x 0| * |y 0| = a0 at *
  generalize |x 1| * |y 1| = a1 at *
  generalize |x 2| * |y 2| = a2 at *
  generalize |x 3| * |y 3| = a3 at *
  generalize |x 4| * |y 4| = a4 at *
  generalize x 0 * y 0 = t0 at *
  generalize x 1 * y 1 = t1 at *
  generalize x 2 * y 2 = t2 at *
  generalize x 3 * y 3 = t3 at *
  generalize x 4 * y 4 = t4 at *
  have E : |p0 + p1 + p2 + p3 + p4 - (t0 + t1 + t2 + t3 + t4)| ≤ 1 / 2 ^ 53 * (a0 + a1 + a2 + a3 + a4) + 5 * (1 / 2 ^ 1075) := by
    rw [show p0 + p1 + p2 + p3 + p4 - (t0 + t1 + t2 + t3 + t4) = (p0 - t0) + (p1 - t1) + (p2 - t2) + (p3 - t3) + (p4 - t4) by ring]
    refine (abs_add_le _ _).trans ?_
    have := abs_add_le ((p0 - t0) + (p1 - t1) + (p2 - t2)) (p3 - t3)
    have := abs_add_le ((p0 - t0) + (p1 - t1)) (p2 - t2)
    have := abs_add_le (p0 - t0) (p1 - t1)
    linarith
  have X : |p0| + |p1| + |p2| + |p3| + |p4| ≤ (1 + 1 / 2 ^ 53) * (a0 + a1 + a2 + a3 + a4) + 5 * (1 / 2 ^ 1075) := by linarith
  have tot := near_trans e2 E
  refine tot.trans ?_
  have A0 : 0 ≤ a0 + a1 + a2 + a3 + a4 := by linarith
  generalize a0 + a1 + a2 + a3 + a4 = A at *
  generalize |p0| + |p1| + |p2| + |p3| + |p4| = Y at *
  have k1 := mul_le_mul_of_nonneg_left X v0
  have k2 : (1 : ℝ) / 2 ^ 53 * (1 / 2 ^ 53 * A) ≤ 1 / 1000000 * (1 / 2 ^ 53 * A) := mul_le_mul_of_nonneg_right v1 (by positivity)
  have k3 : (1 : ℝ) / 2 ^ 53 * (1 / 2 ^ 1075) ≤ 1 / 1000000 * (1 / 2 ^ 1075) := mul_le_mul_of_nonneg_right v1 η0
  have k4 : 0 ≤ (1 : ℝ) / 2 ^ 53 * A := by positivity
  generalize (1 : ℝ) / 2 ^ 1075 = η at *
  generalize (1 : ℝ) / 2 ^ 53 = v at *
  nlinarith

/-- the product of two matrices -/
theorem product_near (h : NearestF 53 1074 fl) {mm : M5 → M5 → M5} (hm : IsProduct fl mm) {F G : Matrix (Fin 5) (Fin 5) ℝ}
    (hb : ∀ i k j, |F i k| * |G k j| ≤ 2 ^ 800) :
    ∃ P : Matrix (Fin 5) (Fin 5) ℝ, mm (M5.re F) (M5.re G) = M5.re P ∧
      ∀ i j, |P i j - (F * G) i j| ≤ 51 / 10 * (1 / 2 ^ 53) * ∑ k, |F i k| * |G k j| + 10 * (1 / 2 ^ 1075) := by
  have key := fun i j => entry_sum h (x := F i) (y := fun k => G k j) (fun k => hb i k j) (hm (M5.re F) (M5.re G) i j)
  choose P hP using key
  refine ⟨P, ?_, fun i j => by rw [Matrix.mul_apply]; exact (hP i j).2⟩
  funext i j
  exact (hP i j).1

theorem pair_near {x x' y y' s t ε : ℝ} (s0 : 0 ≤ s) (t0 : 0 ≤ t) (ε0 : 0 ≤ ε) (ε1 : ε ≤ 1 / 1000) (hx : |x| ≤ 5 * s) (hy : |y| ≤ 5 * t)
    (dx : |x' - x| ≤ ε * s) (dy : |y' - y| ≤ ε * t) : |x' * y' - x * y| ≤ 1001 / 100 * ε * (s * t) := by
  rw [show x' * y' - x * y = (x' - x) * (y' - y) + (x' - x) * y + x * (y' - y) by ring]
  refine (abs_add_le _ _).trans ?_
  have k0 := abs_add_le ((x' - x) * (y' - y)) ((x' - x) * y)
  rw [abs_mul, abs_mul] at k0
  rw [abs_mul x]
  have k1 := mul_le_mul dx dy (abs_nonneg _) (by positivity)
  have k2 := mul_le_mul dx hy (abs_nonneg _) (by positivity)
  have k3 := mul_le_mul hx dy (abs_nonneg _) (by positivity)
  have k4 : ε * (ε * (s * t)) ≤ 1 / 1000 * (ε * (s * t)) := mul_le_mul_of_nonneg_right ε1 (by positivity)
  have e1 : ε * s * (ε * t) = ε * (ε * (s * t)) := by ring
  have e2 : ε * s * (5 * t) = 5 * (ε * (s * t)) := by ring
  have e3 : 5 * s * (ε * t) = 5 * (ε * (s * t)) := by ring
  rw [e1] at k1
  rw [e2] at k2
  rw [e3] at k3
  have : 0 ≤ ε * (s * t) := by positivity
  rw [mul_assoc]
  linarith

theorem eta_253 : (1 : ℝ) / 2 ^ 1075 * 2 ^ 253 * 100 ≤ 1 / 2 ^ 800 := by
  have e1 : (2 : ℝ) ^ 1075 = 2 ^ 822 * 2 ^ 253 := by rw [← pow_add]
  have e2 : (2 : ℝ) ^ 822 = 2 ^ 22 * 2 ^ 800 := by rw [← pow_add]
  rw [e1, ← one_div_mul_one_div, mul_assoc, mul_assoc, ← mul_assoc (1 / 2 ^ 253), one_div_mul_cancel (by positivity), one_mul, e2, ← one_div_mul_one_div,
    mul_comm, ← mul_assoc]
  refine mul_le_of_le_one_left (by positivity) ?_
  norm_num

/-- an entry of the product of three matrices `F C Fᵀ`, the entries of `F` known with an error -/
theorem sandwich_entry (h : NearestF 53 1074 fl) {F F' S C : Matrix (Fin 5) (Fin 5) ℝ} {ε : ℝ} (ε0 : 0 ≤ ε)
    (ε1 : ε ≤ 1 / 1000) (hF : ∀ i j, |F i j| ≤ 5 * S i j) (hd : ∀ i j, |F' i j - F i j| ≤ ε * S i j) (hS : ∀ i j, S i j ≤ 2 ^ 250)
    (hC : ∀ i j, |C i j| ≤ 2 ^ 200) {B0 : M5} (hs : ∀ i j, SumOf fl ((List.finRange 5).map fun k => mulD fl (fin (F' i k)) (fin (C k j))) (B0 i j))
    {i j : Fin 5} {a : Dbl} (ha : SumOf fl ((List.finRange 5).map fun k => mulD fl (B0 i k) (fin (F' j k))) a) :
    ∃ R, a = fin R ∧ |R - (F * C * F.transpose) i j| ≤ (1001 / 100 * ε + 260 * (1 / 2 ^ 53)) * ∑ l, ∑ k, S i k * |C k l| * S j l + 1 / 2 ^ 800 := by
  have v1 : (1 : ℝ) / 2 ^ 53 ≤ 1 / 1000000 := by norm_num
  have v0 : (0 : ℝ) ≤ 1 / 2 ^ 53 := by positivity
  have η0 : (0 : ℝ) ≤ 1 / 2 ^ 1075 := by positivity
  have η1 : (1 : ℝ) / 2 ^ 1075 ≤ 1 := by
    rw [div_le_one (by positivity)]
    exact one_le_pow₀ (by norm_num)
  have S0 : ∀ i j, 0 ≤ S i j := fun i j => by
    have := (abs_nonneg _).trans (hF i j)
    linarith
  have hF' : ∀ i j, |F' i j| ≤ 5001 / 1000 * S i j := fun i j => by
    have k := abs_near (hd i j)
    have := mul_le_mul_of_nonneg_right ε1 (S0 i j)
    linarith [hF i j]
  have bF : ∀ i j, |F' i j| ≤ 2 ^ 253 := fun i j => by
    refine (hF' i j).trans ?_
    rw [show (2 : ℝ) ^ 253 = 8 * 2 ^ 250 by norm_num]
    exact mul_le_mul (by norm_num) (hS i j) (S0 i j) (by norm_num)
  have key := fun i j => entry_sum h (x := F' i) (y := fun k => C k j) (fun k => by
    refine (mul_le_mul (bF i k) (hC k j) (abs_nonneg _) (by positivity)).trans ?_
    rw [← pow_add]
    exact pow_le_pow_right₀ (by norm_num) (by norm_num)) (hs i j)
  obtain ⟨P, hP⟩ : ∃ P : Matrix (Fin 5) (Fin 5) ℝ, ∀ i j, B0 i j = fin (P i j) ∧
      |P i j - ∑ k, F' i k * C k j| ≤ 51 / 10 * (1 / 2 ^ 53) * ∑ k, |F' i k| * |C k j| + 10 * (1 / 2 ^ 1075) := by
    choose P hP using key
    exact ⟨P, hP⟩
  have p2 : ∀ i j, |P i j - (F' * C) i j| ≤ 51 / 10 * (1 / 2 ^ 53) * ∑ k, |F' i k| * |C k j| + 10 * (1 / 2 ^ 1075) := fun i j => by
    rw [Matrix.mul_apply]
    exact (hP i j).2
  simp only [(hP _ _).1] at ha
  have A0 : ∀ i l, 0 ≤ ∑ k, |F' i k| * |C k l| := fun i l => Finset.sum_nonneg fun k _ => by positivity
  have bA : ∀ i l, ∑ k, |F' i k| * |C k l| ≤ 5 * 2 ^ 453 := fun i l => by
    refine (Finset.sum_le_card_nsmul _ _ (2 ^ 453) fun k _ => ?_).trans (by simp)
    rw [show (453 : ℕ) = 253 + 200 from rfl, pow_add]
    exact mul_le_mul (bF i k) (hC k l) (abs_nonneg _) (by positivity)
  have tr : ∀ i l, |(F' * C) i l| ≤ ∑ k, |F' i k| * |C k l| := fun i l => by
    rw [Matrix.mul_apply]
    refine (Finset.abs_sum_le_sum_abs _ _).trans (le_of_eq ?_)
    exact Finset.sum_congr rfl fun k _ => abs_mul _ _
  have bP : ∀ i l, |P i l| ≤ (1 + 51 / 10 * (1 / 2 ^ 53)) * ∑ k, |F' i k| * |C k l| + 10 * (1 / 2 ^ 1075) := fun i l => by
    have := abs_near (p2 i l)
    linarith [tr i l]
  have bP2 : ∀ i l, |P i l| ≤ 2 ^ 460 := fun i l => by
    refine (bP i l).trans ?_
    have k1 : (1 + 51 / 10 * ((1 : ℝ) / 2 ^ 53)) * ∑ k, |F' i k| * |C k l| ≤ 2 * ∑ k, |F' i k| * |C k l| :=
      mul_le_mul_of_nonneg_right (by linarith) (A0 i l)
    have k2 := bA i l
    have k3 : (1 : ℝ) ≤ 2 ^ 453 := one_le_pow₀ (by norm_num)
    have k4 : (2 : ℝ) ^ 460 = 128 * 2 ^ 453 := by rw [show (460 : ℕ) = 7 + 453 from rfl, pow_add]; norm_num
    rw [k4]
    clear k4 bP tr p2 hP
    generalize (2 : ℝ) ^ 453 = X at *
    generalize (1 : ℝ) / 2 ^ 1075 = η at *
    linarith
  obtain ⟨R, r1, e1⟩ := entry_sum h (x := P i) (y := F' j) (fun k => by
    refine (mul_le_mul (bP2 i k) (bF j k) (abs_nonneg _) (by positivity)).trans ?_
    rw [← pow_add]
    exact pow_le_pow_right₀ (by norm_num) (by norm_num)) ha
  refine ⟨R, r1, ?_⟩
  rw [show ∑ k, P i k * F' j k = (P * F'.transpose) i j from rfl] at e1
  -- the second factor of the first product
  obtain ⟨W, hW⟩ : ∃ W, W = ∑ l, (∑ k, |F' i k| * |C k l|) * |F' j l| := ⟨_, rfl⟩
  obtain ⟨B, hB⟩ : ∃ B, B = ∑ l, |F' j l| := ⟨_, rfl⟩
  have e2 : ∑ l, |P i l| * |F' j l| ≤ (1 + 51 / 10 * (1 / 2 ^ 53)) * W + 10 * (1 / 2 ^ 1075) * B := by
    rw [hW, hB, Finset.mul_sum, Finset.mul_sum, ← Finset.sum_add_distrib]
    refine Finset.sum_le_sum fun l _ => ?_
    have := mul_le_mul_of_nonneg_right (bP i l) (abs_nonneg (F' j l))
    linarith
  have e3 : |(P * F'.transpose) i j - (F' * C * F'.transpose) i j| ≤ 51 / 10 * (1 / 2 ^ 53) * W + 10 * (1 / 2 ^ 1075) * B := by
    rw [← Matrix.sub_apply, ← Matrix.sub_mul, Matrix.mul_apply, hW, hB, Finset.mul_sum, Finset.mul_sum, ← Finset.sum_add_distrib]
    refine (Finset.abs_sum_le_sum_abs _ _).trans (Finset.sum_le_sum fun l _ => ?_)
    rw [abs_mul, Matrix.transpose_apply, Matrix.sub_apply]
    have := mul_le_mul_of_nonneg_right (p2 i l) (abs_nonneg (F' j l))
    linarith
  have e4 : |(F' * C * F'.transpose) i j - (F * C * F.transpose) i j| ≤ 1001 / 100 * ε * ∑ l, ∑ k, S i k * |C k l| * S j l := by
    rw [Matrix.mul_apply, Matrix.mul_apply, ← Finset.sum_sub_distrib, Finset.mul_sum]
    refine (Finset.abs_sum_le_sum_abs _ _).trans (Finset.sum_le_sum fun l _ => ?_)
    rw [Matrix.mul_apply, Matrix.mul_apply, Finset.sum_mul, Finset.sum_mul, ← Finset.sum_sub_distrib, Finset.mul_sum]
    refine (Finset.abs_sum_le_sum_abs _ _).trans (Finset.sum_le_sum fun k _ => ?_)
    rw [Matrix.transpose_apply, Matrix.transpose_apply, show F' i k * C k l * F' j l - F i k * C k l * F j l = (F' i k * F' j l - F i k * F j l) * C k l by ring,
      abs_mul]
    refine (mul_le_mul_of_nonneg_right (pair_near (S0 i k) (S0 j l) ε0 ε1 (hF i k) (hF j l) (hd i k) (hd j l)) (abs_nonneg _)).trans (le_of_eq ?_)
    ring
  have e5 : W ≤ 251 / 10 * ∑ l, ∑ k, S i k * |C k l| * S j l := by
    rw [hW, Finset.mul_sum]
    refine Finset.sum_le_sum fun l _ => ?_
    rw [Finset.sum_mul, Finset.mul_sum]
    refine Finset.sum_le_sum fun k _ => ?_
    have k1 := mul_le_mul (hF' i k) (hF' j l) (abs_nonneg _) (mul_nonneg (by norm_num) (S0 i k))
    have k2 := mul_le_mul_of_nonneg_right k1 (abs_nonneg (C k l))
    have k3 : 0 ≤ S i k * |C k l| * S j l := mul_nonneg (mul_nonneg (S0 i k) (abs_nonneg _)) (S0 j l)
    rw [show |F' i k| * |C k l| * |F' j l| = |F' i k| * |F' j l| * |C k l| by ring]
    refine k2.trans ?_
    rw [show 5001 / 1000 * S i k * (5001 / 1000 * S j l) * |C k l| = 5001 / 1000 * (5001 / 1000) * (S i k * |C k l| * S j l) by ring]
    exact mul_le_mul_of_nonneg_right (by norm_num) k3
  have e6 : B ≤ 5 * 2 ^ 253 := by
    rw [hB]
    exact (Finset.sum_le_card_nsmul _ _ (2 ^ 253) fun l _ => bF j l).trans (by simp)
  have W0 : 0 ≤ W := by
    rw [hW]
    exact Finset.sum_nonneg fun l _ => mul_nonneg (A0 i l) (abs_nonneg _)
  have B0 : 0 ≤ B := by
    rw [hB]
    exact Finset.sum_nonneg fun l _ => abs_nonneg _
  have e7 : 11 * ((1 : ℝ) / 2 ^ 1075) * B + 10 * (1 / 2 ^ 1075) ≤ 1 / 2 ^ 800 := by
    have k1 : 11 * ((1 : ℝ) / 2 ^ 1075) * B ≤ 11 * ((1 : ℝ) / 2 ^ 1075) * (5 * 2 ^ 253) := mul_le_mul_of_nonneg_left e6 (by positivity)
    have k2 : (1 : ℝ) ≤ 2 ^ 253 := one_le_pow₀ (by norm_num)
    have k3 := eta_253
    have k4 := mul_le_mul_of_nonneg_left k2 η0
    generalize (1 : ℝ) / 2 ^ 1075 = η at *
    generalize (1 : ℝ) / 2 ^ 800 = ζ at *
    generalize (2 : ℝ) ^ 253 = X at *
    linarith
  have tot := near_trans (near_trans e1 e3) e4
  refine tot.trans ?_
  generalize ∑ l, ∑ k, S i k * |C k l| * S j l = V at *
  have f1 := mul_le_mul_of_nonneg_left e2 v0
  have f2 : (1 : ℝ) / 2 ^ 53 * ((1 / 2 ^ 53) * W) ≤ 1 / 1000000 * ((1 / 2 ^ 53) * W) := mul_le_mul_of_nonneg_right v1 (by positivity)
  have f3 : (1 : ℝ) / 2 ^ 53 * (1 / 2 ^ 1075 * B) ≤ 1 / 1000000 * (1 / 2 ^ 1075 * B) := mul_le_mul_of_nonneg_right v1 (mul_nonneg η0 B0)
  have f4 := mul_le_mul_of_nonneg_left e5 v0
  have f5 : 0 ≤ (1 : ℝ) / 2 ^ 53 * W := by positivity
  have f6 : 0 ≤ (1 : ℝ) / 2 ^ 1075 * B := mul_nonneg η0 B0
  clear e1 e2 e3 e4 r1 hP ha hs p2 hF hd hS hC bA bP bP2 tr A0 bF hF' S0 hW hB e5 e6 tot
  generalize (1 : ℝ) / 2 ^ 800 = ζ at *
  generalize (1 : ℝ) / 2 ^ 1075 = η at *
  generalize (1 : ℝ) / 2 ^ 53 = v at *
  generalize ∑ l, |P i l| * |F' j l| = Q at *
  have g1 : v * ((1 + 51 / 10 * v) * W + 10 * η * B) = v * W + 51 / 10 * (v * (v * W)) + 10 * (v * (η * B)) := by ring
  rw [g1] at f1
  have g2 : v * (251 / 10 * V) = 251 / 10 * (v * V) := by ring
  rw [g2] at f4
  have g3 : 51 / 10 * v * Q = 51 / 10 * (v * Q) := by ring
  have g4 : 51 / 10 * v * W = 51 / 10 * (v * W) := by ring
  have g5 : 10 * η * B = 10 * (η * B) := by ring
  have g6 : 11 * η * B = 11 * (η * B) := by ring
  have g7 : (1001 / 100 * ε + 260 * v) * V = 1001 / 100 * ε * V + 260 * (v * V) := by ring
  rw [g3, g4, g5, g7]
  rw [g6] at e7
  linarith

/-- the product of three matrices `F C Fᵀ`, the entries of `F` known with an error -/
theorem sandwich_near (h : NearestF 53 1074 fl) {mm : M5 → M5 → M5} (hm : IsProduct fl mm) {F F' S C : Matrix (Fin 5) (Fin 5) ℝ} {ε : ℝ} (ε0 : 0 ≤ ε)
    (ε1 : ε ≤ 1 / 1000) (hF : ∀ i j, |F i j| ≤ 5 * S i j) (hd : ∀ i j, |F' i j - F i j| ≤ ε * S i j) (hS : ∀ i j, S i j ≤ 2 ^ 250)
    (hC : ∀ i j, |C i j| ≤ 2 ^ 200) :
    ∃ R : Matrix (Fin 5) (Fin 5) ℝ, mm (mm (M5.re F') (M5.re C)) (M5.transpose (M5.re F')) = M5.re R ∧
      ∀ i j, |R i j - (F * C * F.transpose) i j| ≤ (1001 / 100 * ε + 260 * (1 / 2 ^ 53)) * ∑ l, ∑ k, S i k * |C k l| * S j l + 1 / 2 ^ 800 := by
  have key := fun i j => sandwich_entry h ε0 ε1 hF hd hS hC (hm (M5.re F') (M5.re C)) (hm (mm (M5.re F') (M5.re C)) (M5.transpose (M5.re F')) i j)
  choose R hR using key
  exact ⟨R, funext fun i => funext fun j => (hR i j).1, fun i j => (hR i j).2⟩

end Rnd

end Verif
