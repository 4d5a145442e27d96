import Verif.Lemmas.RoundedCross

/-!
# Error analysis for the crossings of two circles

Everything in units of the geometry: coordinates and radii in units of their bound, normals in units of the distance of the centres.
-/

noncomputable section

namespace Verif

namespace Rnd

variable {u κ : ℝ}

/-- the distance of the radical line -/
theorem radical_error {a b c d e f A B C D E F s1 s2 s3 s4 s5 : ℝ} (hu : 0 ≤ u) (hu' : u ≤ 1 / 1000000) (ha : |a| ≤ 1) (hb : |b| ≤ 1) (hc : |c| ≤ 1)
    (hd : |d| ≤ 1) (he : |e| ≤ 1) (hf : |f| ≤ 1) (hA : |A - a| ≤ u * (|a| + 1 / 1000)) (hB : |B - b| ≤ u * (|b| + 1 / 1000))
    (hC : |C - c| ≤ u * (|c| + 1 / 1000)) (hD : |D - d| ≤ u * (|d| + 1 / 1000)) (hE : |E - e| ≤ u * (|e| + 1 / 1000))
    (hF : |F - f| ≤ u * (|f| + 1 / 1000)) (h1 : |s1 - (A - B)| ≤ u * (|A - B| + 1 / 1000)) (h2 : |s2 - (s1 - C)| ≤ u * (|s1 - C| + 1 / 1000))
    (h3 : |s3 - (s2 + D)| ≤ u * (|s2 + D| + 1 / 1000)) (h4 : |s4 - (s3 - E)| ≤ u * (|s3 - E| + 1 / 1000))
    (h5 : |s5 - (s4 + F)| ≤ u * (|s4 + F| + 1 / 1000)) : |s5 - (a - b - c + d - e + f)| ≤ 32 * u := by
  have A1 := op_bound hu hA ha
  have B1 := op_bound hu hB hb
  have C1 := op_bound hu hC hc
  have D1 := op_bound hu hD hd
  have E1 := op_bound hu hE he
  have F1 := op_bound hu hF hf
  have sz : ∀ {x X α β : ℝ}, |X - x| ≤ α → |x| ≤ β → |X| ≤ α + β := fun {x X α β} hX hx => by
    have k := abs_add_le (X - x) x
    rw [sub_add_cancel] at k
    exact k.trans (add_le_add hX hx)
  have p1 := sub_error A1 B1
  have q1 := sz p1 ((abs_sub a b).trans (add_le_add ha hb))
  have r1 := op_bound (B := 21 / 10) hu h1 (q1.trans (by linarith))
  have t1 : |s1 - (a - b)| ≤ u * (21 / 10 + 1 / 1000) + (u * (1 + 1 / 1000) + u * (1 + 1 / 1000)) := by
    have := abs_sub_le s1 (A - B) (a - b)
    linarith
  have p2 := sub_error t1 C1
  have q2 := sz p2 ((abs_sub _ _).trans (add_le_add ((abs_sub a b).trans (add_le_add ha hb)) hc))
  have r2 := op_bound (B := 31 / 10) hu h2 (q2.trans (by linarith))
  have t2 : |s2 - (a - b - c)| ≤ 9 * u := by
    have := abs_sub_le s2 (s1 - C) (a - b - c)
    linarith
  have z2 : |a - b - c| ≤ 3 := by
    have k1 := abs_le.1 ha
    have k2 := abs_le.1 hb
    have k3 := abs_le.1 hc
    rw [abs_le]
    constructor <;> linarith [k1.1, k1.2, k2.1, k2.2, k3.1, k3.2]
  have p3 := add_error t2 D1
  have z3 := (abs_add_le (a - b - c) d).trans (add_le_add z2 hd)
  have r3 := op_bound (B := 41 / 10) hu h3 ((sz p3 z3).trans (by linarith))
  have t3 : |s3 - (a - b - c + d)| ≤ 15 * u := by
    have := abs_sub_le s3 (s2 + D) (a - b - c + d)
    linarith
  have p4 := sub_error t3 E1
  have z4 := (abs_sub (a - b - c + d) e).trans (add_le_add z3 he)
  have r4 := op_bound (B := 51 / 10) hu h4 ((sz p4 z4).trans (by linarith))
  have t4 : |s4 - (a - b - c + d - e)| ≤ 22 * u := by
    have := abs_sub_le s4 (s3 - E) (a - b - c + d - e)
    linarith
  have p5 := add_error t4 F1
  have z5 := (abs_add_le (a - b - c + d - e) f).trans (add_le_add z4 hf)
  have r5 := op_bound (B := 61 / 10) hu h5 ((sz p5 z5).trans (by linarith))
  have := abs_sub_le s5 (s4 + F) (a - b - c + d - e + f)
  linarith

/-- a component of the normal of the radical line -/
theorem double_error {x a n : ℝ} (hu : 0 ≤ u) (hu' : u ≤ 1 / 1000000) (hx : |x| ≤ 1) (ha : |a - x| ≤ u * (|x| + 1 / 1000))
    (hn : |n - 2 * a| ≤ u * (|2 * a| + 1 / 1000)) : |n - 2 * x| ≤ 5 * u := by
  have a1 := op_bound hu ha hx
  have a2 : |2 * a| ≤ 21 / 10 := by
    have k1 := abs_le.1 a1
    have k2 := abs_le.1 hx
    rw [abs_le]
    constructor <;> linarith [k1.1, k1.2, k2.1, k2.2]
  have n1 := op_bound hu hn a2
  have k1 := abs_le.1 a1
  have k2 := abs_le.1 n1
  rw [abs_le]
  constructor <;> linarith [k1.1, k1.2, k2.1, k2.2]

theorem sq_error {n m α β : ℝ} (h : |n - m| ≤ α) (hm : |m| ≤ β) : |n ^ 2 - m ^ 2| ≤ α * (2 * β + α) := by
  have e : n ^ 2 - m ^ 2 = (n - m) * (2 * m + (n - m)) := by ring
  rw [e]
  refine abs_mul_le_of h ((abs_add_le _ _).trans (add_le_add ?_ h))
  rw [abs_mul, abs_two]
  exact mul_le_mul_of_nonneg_left hm (by norm_num)

/-- a line next to another one: the distance from the centre, the square of the normal and the discriminant -/
theorem line_moved {X Y r p q p' q' D D' δ δ' : ℝ} (hu : 0 ≤ u) (hκ : u ≤ 2 * κ) (hκ' : κ ≤ 1 / 2 ^ 14) (hX : |X| ≤ 1) (hY : |Y| ≤ 1)
    (hr : |r| ≤ 1) (hp : |p| ≤ 2) (hq : |q| ≤ 2) (hp' : |p' - p| ≤ 5 * u) (hq' : |q' - q| ≤ 5 * u) (hD : |D' - D| ≤ 32 * κ)
    (e : δ = D - (p * X + q * Y)) (e' : δ' = D' - (p' * X + q' * Y)) (hδ : |δ| ≤ 3) :
    |δ' - δ| ≤ 52 * κ ∧ |(p' ^ 2 + q' ^ 2) - (p ^ 2 + q ^ 2)| ≤ 82 * κ ∧
    |(r ^ 2 * (p' ^ 2 + q' ^ 2) - δ' ^ 2) - (r ^ 2 * (p ^ 2 + q ^ 2) - δ ^ 2)| ≤ 400 * κ := by
  have κ0 : 0 ≤ κ := by linarith
  have m1 := abs_mul_le_of hp' hX
  have m2 := abs_mul_le_of hq' hY
  have d1 : |δ' - δ| ≤ 52 * κ := by
    have k : δ' - δ = (D' - D) - ((p' - p) * X + (q' - q) * Y) := by rw [e, e']; ring
    rw [k]
    refine (abs_sub _ _).trans ((add_le_add hD ((abs_add_le _ _).trans (add_le_add m1 m2))).trans ?_)
    linarith
  have n1 : |(p' ^ 2 + q' ^ 2) - (p ^ 2 + q ^ 2)| ≤ 82 * κ := by
    have k1 := sq_error hp' hp
    have k2 := sq_error hq' hq
    have k := add_error k1 k2
    refine k.trans ?_
    have : 5 * u * (2 * 2 + 5 * u) ≤ 5 * u * (41 / 10) := mul_le_mul_of_nonneg_left (by linarith) (by positivity)
    linarith
  refine ⟨d1, n1, ?_⟩
  have k1 := sq_error d1 hδ
  have r2 : |r ^ 2| ≤ 1 := by
    rw [abs_pow]
    exact pow_le_one₀ (abs_nonneg r) hr
  have k2 := abs_mul_le_of r2 n1
  have e2 : (r ^ 2 * (p' ^ 2 + q' ^ 2) - δ' ^ 2) - (r ^ 2 * (p ^ 2 + q ^ 2) - δ ^ 2) =
      r ^ 2 * ((p' ^ 2 + q' ^ 2) - (p ^ 2 + q ^ 2)) - (δ' ^ 2 - δ ^ 2) := by ring
  rw [e2]
  refine (abs_sub _ _).trans ((add_le_add k2 k1).trans ?_)
  have : 52 * κ * (2 * 3 + 52 * κ) ≤ 52 * κ * (61 / 10) := mul_le_mul_of_nonneg_left (by norm_num at hκ'; linarith) (by positivity)
  linarith

theorem root_error {a b ε : ℝ} (ha : 0 ≤ a) (hb : 0 < b) (h : |a - b| ≤ ε) : |√a - √b| ≤ ε / √b := by
  have s0 := Real.sqrt_pos.2 hb
  rw [le_div_iff₀ s0]
  have e : a - b = (√a - √b) * (√a + √b) := by
    have := Real.mul_self_sqrt ha
    have := Real.mul_self_sqrt hb.le
    linarith
  rw [e, abs_mul] at h
  refine le_trans (mul_le_mul_of_nonneg_left ?_ (abs_nonneg _)) h
  have := Real.sqrt_nonneg a
  rw [abs_of_nonneg (by linarith)]
  linarith

/-- a coordinate of the crossing of a line next to another one -/
theorem point_moved {p q p' q' δ δ' s s' n n' σ : ℝ} (hu : 0 ≤ u) (hκ : u ≤ 2 * κ) (hκ' : κ ≤ 1 / 2 ^ 14) (hp : |p| ≤ 2) (hq : |q| ≤ 2)
    (hp' : |p' - p| ≤ 5 * u) (hq' : |q' - q| ≤ 5 * u) (hδ : |δ| ≤ 3) (hδ' : |δ' - δ| ≤ 52 * κ) (hs : 0 < s) (hs3 : s ≤ 3) (hs' : |s'| ≤ 4)
    (hss : |s' - s| ≤ 400 * κ / s) (hn : 4 ≤ n) (hn' : |n' - n| ≤ 82 * κ) (hσ : |σ| = 1) :
    |(p' * δ' + σ * (q' * s')) * (1 / n') - (p * δ + σ * (q * s)) * (1 / n)| ≤ 1024 * κ / s := by
  have κ0 : 0 ≤ κ := by linarith
  have κ1 : κ ≤ 1 / 16384 := by norm_num at hκ' ⊢; linarith
  have n'0 : 399 / 100 ≤ n' := by
    have := (abs_le.1 hn').1
    linarith
  have bd : ∀ {x y a b : ℝ}, |x - y| ≤ a → |y| ≤ b → |x| ≤ b + a := fun {x y a b} h1 h2 => by
    have k := abs_add_le (x - y) y
    rw [sub_add_cancel] at k
    linarith
  have pb := bd hp' hp
  have qb := bd hq' hq
  have δb := bd hδ' hδ
  obtain ⟨T', hT'⟩ : ∃ t, t = (p' * δ' + σ * (q' * s')) * (1 / n') := ⟨_, rfl⟩
  obtain ⟨T, hT⟩ : ∃ t, t = (p * δ + σ * (q * s)) * (1 / n) := ⟨_, rfl⟩
  rw [← hT', ← hT]
  have e' : T' * n' = p' * δ' + σ * (q' * s') := by rw [hT']; field_simp
  have e : T * n = p * δ + σ * (q * s) := by rw [hT]; field_simp
  have T4 : |T'| ≤ 4 := by
    have k1 : |T' * n'| ≤ 15 := by
      rw [e']
      refine (abs_add_le _ _).trans ?_
      rw [abs_mul σ, hσ, one_mul]
      have m1 := abs_mul_le_of pb δb
      have m2 := abs_mul_le_of qb hs'
      have b1 : 2 + 5 * u ≤ 201 / 100 := by linarith
      have b2 : 3 + 52 * κ ≤ 301 / 100 := by linarith
      have b3 : (2 + 5 * u) * (3 + 52 * κ) ≤ 201 / 100 * (301 / 100) := mul_le_mul b1 b2 (by positivity) (by norm_num)
      linarith
    rw [abs_mul, abs_of_pos (by linarith : 0 < n')] at k1
    by_contra h
    have := mul_lt_mul_of_pos_right (not_le.1 h) (by linarith : 0 < n')
    linarith
  have d1 : |p' * δ' - p * δ| ≤ 136 * κ := by
    have k : p' * δ' - p * δ = p * (δ' - δ) + (p' - p) * δ' := by ring
    rw [k]
    refine (abs_add_le _ _).trans ((add_le_add (abs_mul_le_of hp hδ') (abs_mul_le_of hp' δb)).trans ?_)
    have b2 : 5 * u * (3 + 52 * κ) ≤ 5 * u * (31 / 10) := mul_le_mul_of_nonneg_left (by linarith) (by positivity)
    linarith
  have d2 : |q' * s' - q * s| ≤ 800 * κ / s + 40 * κ := by
    have k : q' * s' - q * s = q * (s' - s) + (q' - q) * s' := by ring
    rw [k]
    refine (abs_add_le _ _).trans ((add_le_add (abs_mul_le_of hq hss) (abs_mul_le_of hq' hs')).trans ?_)
    have : 2 * (400 * κ / s) = 800 * κ / s := by ring
    linarith
  have d3 : |(T' - T) * n| ≤ 800 * κ / s + 504 * κ := by
    have k : (T' - T) * n = (p' * δ' - p * δ) + σ * (q' * s' - q * s) - T' * (n' - n) := by linarith
    rw [k]
    refine (abs_sub _ _).trans ?_
    refine (add_le_add (abs_add_le _ _) (abs_mul_le_of T4 hn')).trans ?_
    rw [abs_mul σ, hσ, one_mul]
    linarith
  have d4 : κ ≤ 3 * (κ / s) := by
    rw [mul_div_assoc', le_div_iff₀ hs, mul_comm]
    exact mul_le_mul_of_nonneg_right hs3 κ0
  rw [abs_mul, abs_of_pos (by linarith : 0 < n)] at d3
  have d5 := mul_le_mul_of_nonneg_left hn (abs_nonneg (T' - T))
  have e5 : 800 * κ / s = 800 * (κ / s) := by ring
  have e6 : 1024 * κ / s = 1024 * (κ / s) := by ring
  have d6 : 0 ≤ κ / s := by positivity
  rw [e5] at d3
  rw [e6]
  linarith

end Rnd

end Verif
