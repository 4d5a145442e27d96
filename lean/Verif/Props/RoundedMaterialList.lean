import Verif.Props.MaterialScanTrack
import Verif.Props.RoundedMaterialScan

/-!
# C164: the detailed list of materials in double precision
-/

open Classical

noncomputable section

namespace Verif

open Dbl Rnd Spec Rounded MatScan

variable {fl : ℝ → ℝ}

theorem matRowsD_get (fl : ℝ → ℝ) (dir : V3) : ∀ (ls : List Layer) (a b c : Dbl),
    (Rnd.matRows fl dir a b c ls).length = ls.length ∧
    ∀ (k : ℕ) (row : MatRow), (Rnd.matRows fl dir a b c ls)[k]? = some row →
      row = ⟨smulV fl (((ls.take (k + 1)).map fun l => l.length).foldl (addD fl) c) dir,
        ((ls.take (k + 1)).map fun l => divD fl l.length l.radLen).foldl (addD fl) a,
        ((ls.take (k + 1)).map fun l => divD fl l.length l.intLen).foldl (addD fl) b⟩ := by
  intro ls
  induction ls with
  | nil => intro a b c; simp [Rnd.matRows]
  | cons l ls ih =>
    intro a b c
    obtain ⟨i1, i2⟩ := ih (addD fl a (divD fl l.length l.radLen)) (addD fl b (divD fl l.length l.intLen)) (addD fl c l.length)
    refine ⟨by simp [Rnd.matRows, i1], ?_⟩
    intro k row hk
    cases k with
    | zero =>
      simp only [Rnd.matRows, List.getElem?_cons_zero, Option.some.injEq] at hk
      rw [← hk]
      simp
    | succ k =>
      rw [Rnd.matRows, List.getElem?_cons_succ] at hk
      rw [i2 k row hk]
      simp

/-- sizes of a layer: length, radiation length and interaction length between 2^-100 and 2^100 -/
def LayerSize (l : ℝ × ℝ × ℝ) : Prop := Size l.1 ∧ Size l.2.1 ∧ Size l.2.2

theorem sum_take_pos {ls : List (ℝ × ℝ × ℝ)} {f : ℝ × ℝ × ℝ → ℝ} {k : ℕ} (hf : ∀ l ∈ ls, 0 < f l) : 0 ≤ ((ls.take (k + 1)).map f).sum := by
  refine List.sum_nonneg ?_
  intro x hx
  obtain ⟨q, hq, rfl⟩ := List.mem_map.1 hx
  exact (hf q (List.mem_of_mem_take hq)).le

/-- a sum over the first layers -/
theorem layers_sum (h : NearestF 53 1074 fl) {ls : List (ℝ × ℝ × ℝ)} {k : ℕ} (hk : k < 2 ^ 20) {g : Layer → Dbl} {f : ℝ × ℝ × ℝ → ℝ} {E : ℝ} (E0 : 0 ≤ E) (E1 : E ≤ 2)
    (hg : ∀ l ∈ ls, Rel 423 (g ⟨fin l.1, fin l.2.1, fin l.2.2⟩) (f l) E) :
    ∃ r, (((layersOf ls).take (k + 1)).map g).foldl (addD fl) (fin 0) = fin r ∧
      |r - ((ls.take (k + 1)).map f).sum| ≤ (2 * (k + 1) + E) * (((ls.take (k + 1)).map f).sum * (1 / 2 ^ 53)) := by
  have len : (ls.take (k + 1)).length ≤ k + 1 := by simp
  obtain ⟨r, t1, t2⟩ := foldl_rel h E0 (E1.trans (by norm_num)) ((ls.take (k + 1)).map fun l => (g ⟨fin l.1, fin l.2.1, fin l.2.2⟩, f l)) 0 (fin 0) 0
    (by rw [List.length_map]; omega)
    (by
      intro a ha
      obtain ⟨q, hq, rfl⟩ := List.mem_map.1 ha
      exact hg q (List.mem_of_mem_take hq)) le_rfl (by simp) ⟨0, rfl, by simp⟩
  rw [List.map_map, zero_add] at t2
  rw [List.map_map] at t1
  refine ⟨r, ?_, t2.trans ?_⟩
  · rw [layersOf, ← List.map_take, List.map_map]
    exact t1
  · rw [List.length_map, zero_add]
    have len' : (((ls.take (k + 1)).length : ℕ) : ℝ) ≤ k + 1 := by exact_mod_cast len
    have P := sum_take_pos (k := k) fun l hl => (hg l hl).pos
    refine mul_le_mul_of_nonneg_right (by linarith) (mul_nonneg P (by positivity))

/-- C164 (partial): the k-th entry contains the sums over the first k materials, at the corresponding distance along the line from the origin to the
last crossing, within the tolerances.  Missing: no crossing (C164_empty_false). -/
theorem C164_rows_partial (h : NearestF 53 1074 fl) {between : V3 → V3 → List Layer} {rows : List Row} {last : Row} (hlast : rows.getLast? = some last) {x y z : ℝ}
    (hp : last.xx = V3.re x y z) (rx : RepF 53 1074 x) (ry : RepF 53 1074 y) (rz : RepF 53 1074 z) (hP : Size (√(x ^ 2 + y ^ 2 + z ^ 2)))
    (ls : List (ℝ × ℝ × ℝ)) (hb : between V3.zero (V3.re x y z) = layersOf ls) (hX : ∀ l ∈ ls, LayerSize l) :
    (Rnd.materials fl between rows).length = ls.length ∧
      ∀ k row, k < 2 ^ 20 → (Rnd.materials fl between rows)[k]? = some row →
        let X := ((ls.take (k + 1)).map fun l => l.1 / l.2.1).sum
        let L := ((ls.take (k + 1)).map fun l => l.1 / l.2.2).sum
        let D := ((ls.take (k + 1)).map fun l => l.1).sum
        let P := √(x ^ 2 + y ^ 2 + z ^ 2)
        ∃ x0 lam px py pz, row = ⟨V3.re px py pz, fin x0, fin lam⟩ ∧
          |x0 - X| ≤ (2 * k + 4) / 2 ^ 53 * X ∧ |lam - L| ≤ (2 * k + 4) / 2 ^ 53 * L ∧
          |px - D * (x / P)| ≤ (3 * k + 12) / 2 ^ 53 * D ∧ |py - D * (y / P)| ≤ (3 * k + 12) / 2 ^ 53 * D ∧
          |pz - D * (z / P)| ≤ (3 * k + 12) / 2 ^ 53 * D := by
  replace hp : endPoint rows = V3.re x y z := by rw [← hp, endPoint, hlast]; rfl
  have P0 : 0 < √(x ^ 2 + y ^ 2 + z ^ 2) := lt_of_lt_of_le (by positivity) hP.1
  have sq : √(x ^ 2 + y ^ 2 + z ^ 2) ^ 2 = x ^ 2 + y ^ 2 + z ^ 2 := Real.sq_sqrt (by positivity)
  have comp : ∀ {t : ℝ}, t ^ 2 ≤ x ^ 2 + y ^ 2 + z ^ 2 → RepF 53 1074 t → subD fl (fin t) 0 = fin t := by
    intro t ht hr
    rw [zero_eq, subD, fin_sub, sub_zero]
    refine rnd_exact h hr ((abs_le_of_sq_le_sq (by rw [sq]; exact ht) P0.le).trans (hP.2.trans (pow_le_pow_right₀ (by norm_num) (by norm_num))))
  have hsub : subV fl (endPoint rows) V3.zero = V3.re x y z := by
    rw [hp, subV, V3.zero]
    simp only [V3.re]
    rw [comp (by nlinarith) rx, comp (by nlinarith) ry, comp (by nlinarith) rz]
  obtain ⟨v, hv⟩ : ∃ v : R3, v = ![x, y, z] := ⟨_, rfl⟩
  have e1 : V3.of v = V3.re x y z := by rw [hv]; rfl
  have e2 : dot v v = x ^ 2 + y ^ 2 + z ^ 2 := by
    rw [hv]
    simp [dot]
    ring
  have u := unit_ap (v := v) h (by rw [e2]; exact hP.1) (by rw [e2]; exact hP.2)
  rw [e1, V3.unit, momentum_r] at u
  simp only [V3.re, fin_div _ P0.ne'] at u
  have em : Rnd.materials fl between rows = Rnd.matRows fl (unitV fl ⟨fin x, fin y, fin z⟩) 0 0 0 (layersOf ls) := by
    rw [Rnd.materials]
    simp only [hsub]
    rw [hp, hb]
    rfl
  obtain ⟨g1, g2⟩ := matRowsD_get fl (unitV fl ⟨fin x, fin y, fin z⟩) (layersOf ls) 0 0 0
  rw [em]
  refine ⟨by rw [g1, layersOf, List.length_map], ?_⟩
  intro k row hk hrow X L D P
  have hlen : k < ls.length := by
    have := (List.getElem?_eq_some_iff.1 hrow).1
    rwa [g1, layersOf, List.length_map] at this
  have ge := g2 k row hrow
  rw [zero_eq] at ge
  have div : ∀ {a b : ℝ}, Size a → Size b → Rel 423 (divD fl (fin a) (fin b)) (a / b) (1001 / 1000) := fun ha hb =>
    ((Rel.given ha.1 ha.2).div h (Rel.given hb.1 hb.2) (by norm_num) (by norm_num) (by norm_num)).mono (by norm_num) (by norm_num)
  obtain ⟨x0, s1, s2⟩ := layers_sum (k := k) (f := fun l => l.1 / l.2.1) (g := fun l => divD fl l.length l.radLen) h hk (by norm_num) (by norm_num) fun l hl => div (hX l hl).1 (hX l hl).2.1
  obtain ⟨lam, s3, s4⟩ := layers_sum (k := k) (f := fun l => l.1 / l.2.2) (g := fun l => divD fl l.length l.intLen) h hk (by norm_num) (by norm_num) fun l hl => div (hX l hl).1 (hX l hl).2.2
  obtain ⟨d, s5, s6⟩ := layers_sum (k := k) (f := fun l => l.1) (g := fun l => l.length) (E := 0) h hk le_rfl (by norm_num) fun l hl => (Rel.given (hX l hl).1.1 (hX l hl).1.2).mono (by norm_num) le_rfl
  have X0 : 0 ≤ X := sum_take_pos fun l hl => (div (hX l hl).1 (hX l hl).2.1).pos
  have L0 : 0 ≤ L := sum_take_pos fun l hl => (div (hX l hl).1 (hX l hl).2.2).pos
  have kb : (k : ℝ) + 1 ≤ 2 ^ 20 := by exact_mod_cast hk
  have D1 : 1 / 2 ^ 443 ≤ D ∧ D ≤ 2 ^ 443 := by
    constructor
    · have m : ls[0]'(by omega) ∈ ls.take (k + 1) := by
        rw [List.mem_take_iff_getElem]
        exact ⟨0, by omega, rfl⟩
      have i1 : (ls[0]'(by omega)).1 ≤ D := by
        refine List.single_le_sum ?_ _ (List.mem_map.2 ⟨_, m, rfl⟩)
        intro t ht
        obtain ⟨q, hq, rfl⟩ := List.mem_map.1 ht
        exact (lt_of_lt_of_le (by positivity) (hX q (List.mem_of_mem_take hq)).1.1).le
      have i2 := (hX _ (List.getElem_mem (by omega : 0 < ls.length))).1.1
      exact le_trans (one_div_le_one_div_of_le (by positivity) (pow_le_pow_right₀ (by norm_num) (by norm_num))) (i2.trans i1)
    · have i1 : D ≤ ((ls.take (k + 1)).map fun l => l.1).length • (2 : ℝ) ^ 100 := by
        refine List.sum_le_card_nsmul _ _ ?_
        intro t ht
        obtain ⟨q, hq, rfl⟩ := List.mem_map.1 ht
        exact (hX q (List.mem_of_mem_take hq)).1.2
      have i2 : ((((ls.take (k + 1)).map fun l => l.1).length : ℕ) : ℝ) ≤ k + 1 := by
        have : ((ls.take (k + 1)).map fun l => l.1).length ≤ k + 1 := by simp
        exact_mod_cast this
      rw [nsmul_eq_mul] at i1
      refine i1.trans ((mul_le_mul_of_nonneg_right (i2.trans kb) (by positivity)).trans ?_)
      rw [← pow_add]
      exact pow_le_pow_right₀ (by norm_num) (by norm_num)
  have D0 : 0 < D := lt_of_lt_of_le (by positivity) D1.1
  have A : Ap 443 D (fin d) (fin D) 1 (2 * (k + 1)) := ⟨D1.1, D1.2, d, D, rfl, rfl, by rw [add_zero] at s6; exact s6, by rw [one_mul, abs_of_pos D0]⟩
  have pos : ∀ {a : Dbl} {t : ℝ}, Ap 0 1 a (fin t) 1 (71 / 10) → ∃ r, mulD fl (fin d) a = fin r ∧ |r - D * t| ≤ (3 * k + 12) / 2 ^ 53 * D := by
    intro a t ha
    have he : 2 * ((k : ℝ) + 1) * (1 + 1 / 1000) + 1 * (71 / 10) ≤ 2 ^ 40 := by
      norm_num at kb ⊢
      linarith
    have m := Ap.mul h A ha (by norm_num) (by norm_num) he (by norm_num)
    rw [fin_mul] at m
    obtain ⟨r, _, m1, m2, m3, -⟩ := m.val
    injection m2 with m2
    subst m2
    refine ⟨r, m1, m3.trans ?_⟩
    rw [mul_one D, mul_one_div, mul_div_assoc', div_mul_eq_mul_div]
    refine div_le_div_of_nonneg_right (mul_le_mul_of_nonneg_right ?_ D0.le) (by positivity)
    have := Nat.cast_nonneg (α := ℝ) k
    linarith
  obtain ⟨px, x1, x2⟩ := pos u.x
  obtain ⟨py, y1, y2⟩ := pos u.y
  obtain ⟨pz, z1, z2⟩ := pos u.z
  refine ⟨x0, lam, px, py, pz, ?_, ?_, ?_, x2, y2, z2⟩
  · rw [ge, s1, s3, s5, smulV, x1, y1, z1]
    rfl
  · refine s2.trans ?_
    rw [mul_one_div, mul_div_assoc', div_mul_eq_mul_div]
    exact div_le_div_of_nonneg_right (mul_le_mul_of_nonneg_right (by linarith) X0) (by positivity)
  · refine s4.trans ?_
    rw [mul_one_div, mul_div_assoc', div_mul_eq_mul_div]
    exact div_le_div_of_nonneg_right (mul_le_mul_of_nonneg_right (by linarith) L0) (by positivity)

/-- C164: if the lengths add up to the distance of the last crossing, the last entry is at this crossing, within the tolerance. -/
theorem C164_end (h : NearestF 53 1074 fl) {between : V3 → V3 → List Layer} {rows : List Row} {last : Row} (hlast : rows.getLast? = some last) {x y z : ℝ}
    (hp : last.xx = V3.re x y z) (rx : RepF 53 1074 x) (ry : RepF 53 1074 y) (rz : RepF 53 1074 z) (hP : Size (√(x ^ 2 + y ^ 2 + z ^ 2)))
    (ls : List (ℝ × ℝ × ℝ)) (hb : between V3.zero (V3.re x y z) = layersOf ls) (hX : ∀ l ∈ ls, LayerSize l) (hlen : ls.length ≤ 2 ^ 20)
    (hl : (ls.map fun l => l.1).sum = √(x ^ 2 + y ^ 2 + z ^ 2)) (row : MatRow) (hr : (Rnd.materials fl between rows).getLast? = some row) :
    ∃ px py pz, row.pos = V3.re px py pz ∧ |px - x| ≤ (3 * ls.length + 9) / 2 ^ 53 * √(x ^ 2 + y ^ 2 + z ^ 2) ∧
      |py - y| ≤ (3 * ls.length + 9) / 2 ^ 53 * √(x ^ 2 + y ^ 2 + z ^ 2) ∧ |pz - z| ≤ (3 * ls.length + 9) / 2 ^ 53 * √(x ^ 2 + y ^ 2 + z ^ 2) := by
  obtain ⟨g1, g2⟩ := C164_rows_partial h hlast hp rx ry rz hP ls hb hX
  have P0 : 0 < √(x ^ 2 + y ^ 2 + z ^ 2) := lt_of_lt_of_le (by positivity) hP.1
  rw [List.getLast?_eq_getElem?, g1] at hr
  have hpos : 0 < ls.length := by
    rw [← g1]
    by_contra h0
    have : Rnd.materials fl between rows = [] := List.eq_nil_of_length_eq_zero (by omega)
    rw [this] at hr
    simp at hr
  obtain ⟨x0, lam, px, py, pz, e, -, -, k1, k2, k3⟩ := g2 _ row (by omega) hr
  rw [show ls.length - 1 + 1 = ls.length by omega, List.take_length, hl] at k1 k2 k3
  have ec : ((ls.length - 1 : ℕ) : ℝ) = ls.length - 1 := by
    rw [Nat.cast_sub hpos, Nat.cast_one]
  rw [ec, mul_div_cancel₀ _ P0.ne', show 3 * ((ls.length : ℝ) - 1) + 12 = 3 * ls.length + 9 by ring] at k1 k2 k3
  exact ⟨px, py, pz, by rw [e], k1, k2, k3⟩

/-- C164, concrete case: a disk crossed at (0,0,2), and two materials on the way. -/
theorem C164_example (h : NearestF 53 1074 fl) : ∃ row px py pz, (Rnd.materials fl (fun _ _ => layersOf [(1, 9, 30), (1, 5, 20)])
    [⟨fin 1, Example.disk, V3.re 0 0 2, fin 0, fin 0⟩]).getLast? = some row ∧ row.pos = V3.re px py pz ∧ |px| ≤ 1 / 2 ^ 48 ∧ |py| ≤ 1 / 2 ^ 48 ∧
    |pz - 2| ≤ 1 / 2 ^ 48 := by
  have e : √((0 : ℝ) ^ 2 + 0 ^ 2 + 2 ^ 2) = 2 := by
    rw [show (0 : ℝ) ^ 2 + 0 ^ 2 + 2 ^ 2 = 2 ^ 2 by norm_num, Real.sqrt_sq (by norm_num)]
  have hl : (([(1, 9, 30), (1, 5, 20)] : List (ℝ × ℝ × ℝ)).map fun l => l.1).sum = √((0 : ℝ) ^ 2 + 0 ^ 2 + 2 ^ 2) := by
    rw [e]
    norm_num
  have hX : ∀ l ∈ ([(1, 9, 30), (1, 5, 20)] : List (ℝ × ℝ × ℝ)), LayerSize l := by
    intro l hl
    simp only [List.mem_cons, List.not_mem_nil, or_false] at hl
    rcases hl with rfl | rfl <;> norm_num [LayerSize, Size]
  have r2 : RepF 53 1074 (2 : ℝ) := rep_big 2 0 (by norm_num) (by norm_num)
  obtain ⟨px, py, pz, h1, h2, h3, h4⟩ := C164_end (between := fun _ _ => layersOf [(1, 9, 30), (1, 5, 20)])
    (rows := [⟨fin 1, Example.disk, V3.re 0 0 2, fin 0, fin 0⟩]) (x := 0) (y := 0) (z := 2) h rfl rfl repF_zero repF_zero r2 (by rw [e]; norm_num [Size]) _ rfl hX (by norm_num) hl _ rfl
  rw [e] at h2 h3 h4
  rw [sub_zero] at h2 h3
  refine ⟨_, px, py, pz, rfl, h1, h2.trans ?_, h3.trans ?_, h4.trans ?_⟩ <;> norm_num

/-- C164 is false as stated if no surface is crossed: the positions are not numbers. -/
theorem C164_empty_false (h : NearestF 53 1074 fl) {between : V3 → V3 → List Layer} (row : MatRow) (hr : row ∈ Rnd.materials fl between []) :
    row.pos = ⟨nan, nan, nan⟩ := by
  have z : subD fl (0 : Dbl) 0 = fin 0 := by rw [zero_eq, subD, fin_sub, sub_zero, rnd_zero h]
  have z1 : mulD fl (fin 0) (fin 0) = fin 0 := by rw [mulD, fin_mul, mul_zero, rnd_zero h]
  have z2 : addD fl (fin 0) (fin 0) = fin 0 := by rw [addD, fin_add, add_zero, rnd_zero h]
  have z3 : sqrtD fl (fin 0) = fin 0 := by rw [sqrtD, sqrt_fin le_rfl, Real.sqrt_zero, rnd_zero h]
  have z4 : divD fl (fin 0) (fin 0) = nan := by rw [divD]; simp [rnd]
  have hd : unitV fl (subV fl (endPoint []) V3.zero) = ⟨nan, nan, nan⟩ := by
    simp only [endPoint, List.getLast?_nil, Option.map_none, Option.getD_none, subV, V3.zero, z, unitV, rV, dotV, z1, z2, z3, z4]
  unfold Rnd.materials at hr
  simp only [hd] at hr
  obtain ⟨k, hk⟩ := List.mem_iff_getElem?.1 hr
  rw [(matRowsD_get fl _ _ _ _ _).2 k row hk]
  have n : ∀ p : Dbl, mulD fl p nan = nan := fun p => by cases p <;> rfl
  simp only [smulV, n]

end Verif
