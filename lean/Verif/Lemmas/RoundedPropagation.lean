import Verif.Lemmas.ErrorCalculus
import Verif.Props.Propagation

/-!
# Propagation Jacobian in double precision
-/

open Classical

noncomputable section

namespace Verif

open Dbl Spec

namespace Rnd

section
variable {fl : ℝ → ℝ} {lm : Libm} {a a' b b' c c' d d' n n' t t' f f' s s' o o' g g' m m' q q' r r' : Dbl}

/-- the sums in rows 1 and 2 -/
theorem Ap.turn (h : NearestF 53 1074 fl) (hc : Ap 0 1 r r' 1 (257 / 5)) (hs : Ap 0 1 s s' 1 (257 / 5)) (hom : Ap 0 1 o o' 2 (53401 / 1000))
    (htm : Ap 0 1 m m' 5 (104701 / 1000)) (hga : Ap 0 1 g g' (1001 / 1000) (26353 / 1000)) (wa : Ap 0 1 a a' (101 / 100) 102)
    (wb : Ap 0 1 b b' (101 / 100) 210) (wn : Ap 0 1 c c' (101 / 100) 77) (wd : Ap 0 1 d d' (101 / 100) 77) (wm : Ap 0 1 n n' (101 / 100) 77)
    (wt : Ap 0 1 t t' (101 / 100) 54) (wf : Ap 0 1 f f' (101 / 100) 110) :
    Ap 0 1 (jacTurn fl r s o m g a b c d n t f) (r' * a' + s' * b' + o' * c' * d' + n' * (-s' * t' + o' * f' - g' * m' * c')) 13 2500 := by
  have gt := (Ap.mulr h hga htm (by norm_num) (by norm_num) (by norm_num) (by norm_num)).mono (B' := (1001 / 200)) (e' := (60401 / 250)) (by norm_num) (by norm_num)
  have hns := Ap.neg hs
  have w1 := (Ap.mulr h hc wa (by norm_num) (by norm_num) (by norm_num) (by norm_num)).mono (B' := (101 / 100)) (e' := (154977 / 1000)) (by norm_num) (by norm_num)
  have w2 := (Ap.mulr h hs wb (by norm_num) (by norm_num) (by norm_num) (by norm_num)).mono (B' := (101 / 100)) (e' := (262977 / 1000)) (by norm_num) (by norm_num)
  have w3 := (Ap.add h w1 w2 (by norm_num) (by norm_num) (by norm_num)).mono (B' := (101 / 50)) (e' := (16799 / 40)) (by norm_num) (by norm_num)
  have w4 := (Ap.mulr h hom wn (by norm_num) (by norm_num) (by norm_num) (by norm_num)).mono (B' := (101 / 50)) (e' := (21001 / 100)) (by norm_num) (by norm_num)
  have w5 := (Ap.mulr h w4 wd (by norm_num) (by norm_num) (by norm_num) (by norm_num)).mono (B' := (2041 / 1000)) (e' := (184951 / 500)) (by norm_num) (by norm_num)
  have w6 := (Ap.add h w3 w5 (by norm_num) (by norm_num) (by norm_num)).mono (B' := (4061 / 1000)) (e' := (793939 / 1000)) (by norm_num) (by norm_num)
  have w7 := (Ap.mulr h hns wt (by norm_num) (by norm_num) (by norm_num) (by norm_num)).mono (B' := (101 / 100)) (e' := (106977 / 1000)) (by norm_num) (by norm_num)
  have w8 := (Ap.mulr h hom wf (by norm_num) (by norm_num) (by norm_num) (by norm_num)).mono (B' := (101 / 50)) (e' := (27601 / 100)) (by norm_num) (by norm_num)
  have w9 := (Ap.add h w7 w8 (by norm_num) (by norm_num) (by norm_num)).mono (B' := (303 / 100)) (e' := (193009 / 500)) (by norm_num) (by norm_num)
  have w10 := (Ap.mulr h gt wn (by norm_num) (by norm_num) (by norm_num) (by norm_num)).mono (B' := (632 / 125)) (e' := (634703 / 1000)) (by norm_num) (by norm_num)
  have w11 := (Ap.sub h w9 w10 (by norm_num) (by norm_num) (by norm_num)).mono (B' := (4043 / 500)) (e' := (128601 / 125)) (by norm_num) (by norm_num)
  have w12 := (Ap.mulr h wm w11 (by norm_num) (by norm_num) (by norm_num) (by norm_num)).mono (B' := (8167 / 1000)) (e' := (1669963 / 1000)) (by norm_num) (by norm_num)
  have w := (Ap.add h w6 w12 (by norm_num) (by norm_num) (by norm_num)).mono (B' := (3057 / 250)) (e' := (2476131 / 1000)) (by norm_num) (by norm_num)
  exact w.mono (by norm_num) (by norm_num)

/-- the sums in rows 3 and 4 -/
theorem Ap.shift (h : NearestF 53 1074 fl) (hs : Ap 0 1 s s' 1 (257 / 5)) (hom : Ap 0 1 o o' 2 (53401 / 1000))
    (htm : Ap 0 1 m m' 5 (104701 / 1000)) (wa : Ap 0 1 a a' (101 / 100) 102)
    (wb : Ap 0 1 b b' (101 / 100) 210) (wn : Ap 0 1 c c' (101 / 100) 77) (wd : Ap 0 1 d d' (101 / 100) 77) :
    Ap 0 1 (jacShift fl s o m a b c d) (s' * a' + o' * b' + m' * c' * d') (41 / 5) 1540 := by
  have z1 := (Ap.mulr h hs wa (by norm_num) (by norm_num) (by norm_num) (by norm_num)).mono (B' := (101 / 100)) (e' := (154977 / 1000)) (by norm_num) (by norm_num)
  have z2 := (Ap.mulr h hom wb (by norm_num) (by norm_num) (by norm_num) (by norm_num)).mono (B' := (101 / 50)) (e' := (47601 / 100)) (by norm_num) (by norm_num)
  have z3 := (Ap.add h z1 z2 (by norm_num) (by norm_num) (by norm_num)).mono (B' := (303 / 100)) (e' := (317009 / 500)) (by norm_num) (by norm_num)
  have z4 := (Ap.mulr h htm wn (by norm_num) (by norm_num) (by norm_num) (by norm_num)).mono (B' := (101 / 20)) (e' := (61988 / 125)) (by norm_num) (by norm_num)
  have z5 := (Ap.mulr h z4 wd (by norm_num) (by norm_num) (by norm_num) (by norm_num)).mono (B' := (5101 / 1000)) (e' := (895311 / 1000)) (by norm_num) (by norm_num)
  have z := (Ap.add h z3 z5 (by norm_num) (by norm_num) (by norm_num)).mono (B' := (8131 / 1000)) (e' := (1537461 / 1000)) (by norm_num) (by norm_num)
  exact z.mono (by norm_num) (by norm_num)

end

section
variable {fl : ℝ → ℝ} {lm : Libm} {k : ℕ} {v : R3} {B : ℝ}

/-- the factor of the units -/
theorem conv_ap (h : NearestF 53 1074 fl) : Ap 9 kBr (convD fl) convertBr2P_cm 1 (301 / 100) := by
  have a1 : Ap 2 (0.299792458 : ℝ) (rnd fl 1024 (fin 0.299792458)) (fin 0.299792458) 1 (0 + 1 + 1 / 1000) :=
    Ap.round h (by norm_num) (by norm_num) (by norm_num) (by norm_num) (by norm_num) (by simp) (by rw [one_mul, abs_of_pos (by norm_num)])
  have a2 : Ap 7 (1 / 100 : ℝ) (divD fl 1 (fin 100)) (1 / fin 100) 1 (1001 / 1000 * (0 + 1 * 0) + 1 + 1 / 1000) := by
    rw [one_eq]
    exact Ap.divr h (Ap.unit (by simp)) (Ap.given (k := 7) (S := 100) (B := 1) (by norm_num) (by norm_num) (by norm_num)) rfl (by norm_num)
      (by norm_num) (by norm_num) (by norm_num) (by norm_num)
  have := (Ap.mul h a1 a2 (by norm_num) (by norm_num) (by norm_num) (by norm_num)).mono (B' := 1) (e' := 301 / 100) (by norm_num) (by norm_num)
  have e : (1 : Dbl) / fin 100 = fin (1 / 100) := by rw [one_eq, fin_div _ (by norm_num)]
  rw [e, fin_mul] at this
  exact this

/-- the transverse part of a direction -/
theorem trans_ap (h : NearestF 53 1074 fl) (h1 : 1 / 2 ^ 100 ≤ cosDip v) (h2 : cosDip v ≤ 2 ^ 100) :
    Ap 100 (cosDip v) (transV fl (V3.of v)) (Dbl.sqrt ((V3.of v).x * (V3.of v).x + (V3.of v).y * (V3.of v).y)) 1 (401 / 100) := by
  have T0 : 0 < cosDip v := lt_of_lt_of_le (by positivity) h1
  have sq : cosDip v * cosDip v = v 0 * v 0 + v 1 * v 1 := Real.mul_self_sqrt (add_nonneg (mul_self_nonneg _) (mul_self_nonneg _))
  have b0 : |v 0| ≤ 1 * cosDip v := by
    rw [one_mul]
    exact abs_le_of_sq_le_sq (by nlinarith [sq_nonneg (v 1)]) T0.le
  have b1 : |v 1| ≤ 1 * cosDip v := by
    rw [one_mul]
    exact abs_le_of_sq_le_sq (by nlinarith [sq_nonneg (v 0)]) T0.le
  have g0 := Ap.given (k := 100) h1 h2 b0
  have g1 := Ap.given (k := 100) h1 h2 b1
  have p0 := Ap.mul h g0 g0 (by norm_num) (by norm_num) (by norm_num) (by norm_num)
  have p1 := Ap.mul h g1 g1 (by norm_num) (by norm_num) (by norm_num) (by norm_num)
  have s := Ap.addB h p0 p1 (D := 1) (fun t ht => by
    simp only [fin_mul, fin_add, fin.injEq] at ht
    rw [← ht, ← sq, one_mul, abs_of_pos (by positivity)]) (by norm_num) (by norm_num) (by norm_num)
  exact (Ap.sqrt h s (k := 100) (by norm_num) (by norm_num) (by rw [fin_mul, fin_mul, fin_add, sq]) h1 h2).mono le_rfl (by norm_num)

/-- the length of the field -/
theorem r_ap (h : NearestF 53 1074 fl) (h1 : 1 / 2 ^ 100 ≤ √(dot v v)) (h2 : √(dot v v) ≤ 2 ^ 100) :
    Ap 100 √(dot v v) (rV fl (V3.of v)) (V3.of v).r 1 (601 / 100) := by
  have T0 : 0 < √(dot v v) := lt_of_lt_of_le (by positivity) h1
  have sq : √(dot v v) * √(dot v v) = v 0 * v 0 + v 1 * v 1 + v 2 * v 2 :=
    Real.mul_self_sqrt (add_nonneg (add_nonneg (mul_self_nonneg _) (mul_self_nonneg _)) (mul_self_nonneg _))
  have b0 : |v 0| ≤ 1 * √(dot v v) := by
    rw [one_mul]
    exact abs_le_of_sq_le_sq (by nlinarith [sq_nonneg (v 1), sq_nonneg (v 2)]) T0.le
  have b1 : |v 1| ≤ 1 * √(dot v v) := by
    rw [one_mul]
    exact abs_le_of_sq_le_sq (by nlinarith [sq_nonneg (v 0), sq_nonneg (v 2)]) T0.le
  have b2 : |v 2| ≤ 1 * √(dot v v) := by
    rw [one_mul]
    exact abs_le_of_sq_le_sq (by nlinarith [sq_nonneg (v 0), sq_nonneg (v 1)]) T0.le
  have g0 := Ap.given (k := 100) h1 h2 b0
  have g1 := Ap.given (k := 100) h1 h2 b1
  have g2 := Ap.given (k := 100) h1 h2 b2
  have p0 := Ap.mul h g0 g0 (by norm_num) (by norm_num) (by norm_num) (by norm_num)
  have p1 := Ap.mul h g1 g1 (by norm_num) (by norm_num) (by norm_num) (by norm_num)
  have p2 := Ap.mul h g2 g2 (by norm_num) (by norm_num) (by norm_num) (by norm_num)
  have s := Ap.addB h p0 p1 (D := 1) (fun t ht => by
    simp only [fin_mul, fin_add, fin.injEq] at ht
    rw [← ht, sq, one_mul, abs_of_nonneg (add_nonneg (mul_self_nonneg _) (mul_self_nonneg _))]
    linarith [mul_self_nonneg (v 2)]) (by norm_num) (by norm_num) (by norm_num)
  have s' := Ap.addB h s p2 (D := 1) (fun t ht => by
    simp only [fin_mul, fin_add, fin.injEq] at ht
    rw [← ht, sq, one_mul, abs_of_nonneg (add_nonneg (add_nonneg (mul_self_nonneg _) (mul_self_nonneg _)) (mul_self_nonneg _))]) (by norm_num) (by norm_num) (by norm_num)
  exact (Ap.sqrt h s' (k := 100) (by norm_num) (by norm_num) (by simp only [fin_mul, fin_add, sq]) h1 h2).mono le_rfl (by norm_num)

theorem comp_le {x y z n : ℝ} (n0 : 0 ≤ n) (hn : n * n = x * x + y * y + z * z) : |x| ≤ 1 * n ∧ |y| ≤ 1 * n ∧ |z| ≤ 1 * n := by
  rw [one_mul]
  refine ⟨?_, ?_, ?_⟩ <;> refine abs_le_of_sq_le_sq ?_ n0 <;> nlinarith [sq_nonneg x, sq_nonneg y, sq_nonneg z]

/-- the direction of the field -/
theorem unit_ap (h : NearestF 53 1074 fl) (h1 : 1 / 2 ^ 100 ≤ √(dot v v)) (h2 : √(dot v v) ≤ 2 ^ 100) :
    ApV 0 1 (unitV fl (V3.of v)) (V3.of v).unit 1 (71 / 10) := by
  have T0 : 0 < √(dot v v) := lt_of_lt_of_le (by positivity) h1
  have sq : √(dot v v) * √(dot v v) = v 0 * v 0 + v 1 * v 1 + v 2 * v 2 :=
    Real.mul_self_sqrt (add_nonneg (add_nonneg (mul_self_nonneg _) (mul_self_nonneg _)) (mul_self_nonneg _))
  obtain ⟨b0, b1, b2⟩ := comp_le T0.le sq
  have r := r_ap h h1 h2
  have D : ∀ {x : ℝ}, |x| ≤ 1 * √(dot v v) → Ap 0 1 (divD fl (fin x) (rV fl (V3.of v))) (fin x / (V3.of v).r) 1 (71 / 10) := by
    intro x hx
    have g := Ap.given (k := 100) h1 h2 hx
    have := Ap.div h g r (ofV_r v) (le_abs_self _) (by norm_num) (by norm_num) (by norm_num) (by norm_num)
    exact (this.rescale (l := 0) (T := 1) (c := 1) (by rw [mul_one_div_cancel T0.ne', one_mul]) (by norm_num) (by norm_num)).mono (by norm_num)
      (by norm_num)
  refine ⟨D b0, D b1, D b2, fun x y z hv => ?_⟩
  rw [ofV_unit _ T0.ne'] at hv
  simp only [V3.of, V3.re, V3.mk.injEq, fin.injEq, Pi.smul_apply, smul_eq_mul] at hv
  obtain ⟨rfl, rfl, rfl⟩ := hv
  refine le_of_eq ?_
  field_simp
  linarith

/-- the horizontal unit vector -/
theorem frameU_ap (h : NearestF 53 1074 fl) (h1 : 1 / 2 ^ 100 ≤ cosDip v) (h2 : cosDip v ≤ 2 ^ 100) :
    ApV 0 1 ⟨mulD fl (-divD fl 1 (transV fl (V3.of v))) (V3.of v).y, mulD fl (divD fl 1 (transV fl (V3.of v))) (V3.of v).x, 0⟩
      ⟨-(1 / (V3.of v).trans) * (V3.of v).y, 1 / (V3.of v).trans * (V3.of v).x, 0⟩ 1 (61 / 10) := by
  have T0 : 0 < cosDip v := lt_of_lt_of_le (by positivity) h1
  have sq : cosDip v * cosDip v = v 0 * v 0 + v 1 * v 1 + 0 * 0 := by
    rw [mul_zero, add_zero]
    exact Real.mul_self_sqrt (add_nonneg (mul_self_nonneg _) (mul_self_nonneg _))
  obtain ⟨b0, b1, -⟩ := comp_le T0.le sq
  have a : Ap 100 (1 / cosDip v) (divD fl 1 (transV fl (V3.of v))) (1 / (V3.of v).trans) 1 (502 / 100) := by
    have := Ap.divr h (Ap.unit (B := 1) (x := 1) (by simp)) (trans_ap h h1 h2) (sqrt_xy_of v) (le_abs_self _) (by norm_num) (by norm_num) (by norm_num)
      (by norm_num)
    rw [← one_eq] at this
    exact this.mono le_rfl (by norm_num)
  have D : ∀ {b b' : Dbl} {x : ℝ}, Ap 100 (1 / cosDip v) b b' 1 (502 / 100) → |x| ≤ 1 * cosDip v → Ap 0 1 (mulD fl b (fin x)) (b' * fin x) 1 (61 / 10) := by
    intro b b' x hb hx
    have g := Ap.given (k := 100) h1 h2 hx
    have := Ap.mul h hb g (by norm_num) (by norm_num) (by norm_num) (by norm_num)
    exact (this.rescale (l := 0) (T := 1) (c := 1) (by rw [one_div_mul_cancel T0.ne', one_mul]) (by norm_num) (by norm_num)).mono (by norm_num)
      (by norm_num)
  refine ⟨D a.neg b1, D a b0, ?_, fun x y z hv => ?_⟩
  · rw [zero_eq]
    exact (Ap.unit (B := 0) (x := 0) (by simp)).mono (by norm_num) (by norm_num)
  · rw [ofV_trans, one_eq, fin_div _ T0.ne', zero_eq] at hv
    simp only [V3.of, V3.re, V3.mk.injEq, fin.injEq, fin_mul, fin_neg] at hv
    obtain ⟨rfl, rfl, rfl⟩ := hv
    refine le_of_eq ?_
    field_simp
    linarith

/-- the third vector of the frame -/
theorem frameV_ap (h : NearestF 53 1074 fl) {u u' : V3} (hu : ApV 0 1 u u' 1 (61 / 10)) (hz : u'.z = fin 0) (hv : dot v v ≤ (1001 / 1000) ^ 2) :
    ApV 0 1 ⟨mulD fl (-(V3.of v).z) u.y, mulD fl (V3.of v).z u.x, subD fl (mulD fl (V3.of v).x u.y) (mulD fl (V3.of v).y u.x)⟩
      ⟨-(V3.of v).z * u'.y, (V3.of v).z * u'.x, (V3.of v).x * u'.y - (V3.of v).y * u'.x⟩ (1001 / 1000) 16 := by
  obtain ⟨x, y, z, rfl, hl⟩ := hu.get
  simp only [fin.injEq] at hz
  subst hz
  have B0 : ∀ i, |v i| ≤ 1001 / 1000 := by
    intro i
    refine abs_le_of_sq_le_sq ?_ (by norm_num)
    unfold dot at hv
    fin_cases i <;> simp only [Fin.zero_eta, Fin.mk_one, Fin.reduceFinMk, Fin.isValue] <;> nlinarith [sq_nonneg (v 0), sq_nonneg (v 1), sq_nonneg (v 2)]
  have len : (-v 2 * y) ^ 2 + (v 2 * x) ^ 2 + (v 0 * y - v 1 * x) ^ 2 ≤ (1001 / 1000 * 1) ^ 2 := by
    rw [mul_one]
    have l1 : (v 0 * y - v 1 * x) ^ 2 ≤ (v 0 ^ 2 + v 1 ^ 2) * (x ^ 2 + y ^ 2) := by nlinarith [sq_nonneg (v 0 * x + v 1 * y)]
    have l2 : (v 0 ^ 2 + v 1 ^ 2 + v 2 ^ 2) * (x ^ 2 + y ^ 2) ≤ (1001 / 1000) ^ 2 * 1 := by
      refine mul_le_mul ?_ (by linarith [sq_nonneg (0 : ℝ)]) (by positivity) (by norm_num)
      unfold dot at hv
      linarith
    nlinarith
  have p : ∀ {c d d' : Dbl} {w : ℝ}, c = fin w → |w| ≤ 1001 / 1000 → Ap 0 1 d d' 1 (61 / 10) → Ap 0 1 (mulD fl c d) (c * d') (1001 / 1000) (72 / 10) := by
    rintro _ d d' w rfl hw hd
    exact (Ap.mulr h (Ap.unit hw) hd (by norm_num) (by norm_num) (by norm_num) (by norm_num)).mono (by norm_num) (by norm_num)
  refine ⟨(p (fin_neg _) (by rw [abs_neg]; exact B0 2) hu.y).mono le_rfl (by norm_num), (p rfl (B0 2) hu.x).mono le_rfl (by norm_num), ?_, ?_⟩
  · have p1 := p (c := (V3.of v).x) rfl (B0 0) hu.y
    have p2 := p (c := (V3.of v).y) rfl (B0 1) hu.x
    refine (Ap.subB h p1 p2 (D := 1001 / 1000) (fun t ht => ?_) (by norm_num) (by norm_num) (by norm_num)).mono le_rfl (by norm_num)
    simp only [V3.of, V3.re, fin_mul, fin_sub, fin.injEq] at ht
    rw [← ht]
    refine abs_le_of_sq_le_sq ?_ (by norm_num)
    linarith [sq_nonneg (-v 2 * y), sq_nonneg (v 2 * x)]
  · intro a b c he
    simp only [V3.of, V3.re, V3.mk.injEq, fin.injEq, fin_mul, fin_neg, fin_sub] at he
    obtain ⟨rfl, rfl, rfl⟩ := he
    exact len


end

section
variable {fl : ℝ → ℝ} {lm : Libm} {n n' t t' r r' s s' o o' g g' m m' q q' qp qp' th th' pav pav' cs cs' ci ci' : Dbl} {Sq Sp P Ci y : ℝ}

/-- a component of the vector `dx` -/
theorem Ap.jacDx (h : NearestF 53 1074 fl) (hq : Ap 209 Sq q q' 1 (111 / 10)) (hy : q' = fin y) (hS : Sq ≤ |y|)
    (hs : Ap 0 1 s s' 1 (257 / 5)) (hom : Ap 0 1 o o' 2 (53401 / 1000)) (gt : Ap 0 1 (mulD fl g m) (g' * m') (1001 / 200) (60401 / 250))
    (hn : Ap 0 1 n n' 1 (71 / 10)) (ht : Ap 0 1 t t' (1001 / 1000) 0) (ha : Ap 0 1 r r' (1001 / 1000) (3447 / 200)) :
    Ap 209 (1 / Sq) (Rnd.jacDx fl g m s o q n t r) (-(g' * m' * n' + s' * t' + o' * r') / q') (1001 / 125) 537 := by
  have Xa := (Ap.mulr h gt hn (by norm_num) (by norm_num) (by norm_num) (by norm_num)).mono (B' := (1001 / 200)) (e' := (70597 / 250)) (by norm_num) (by norm_num)
  have Xb := (Ap.mulr h hs ht (by norm_num) (by norm_num) (by norm_num) (by norm_num)).mono (B' := (1001 / 1000)) (e' := (10501 / 200)) (by norm_num) (by norm_num)
  have Xc := (Ap.add h Xa Xb (by norm_num) (by norm_num) (by norm_num)).mono (B' := (3003 / 500)) (e' := (3409 / 10)) (by norm_num) (by norm_num)
  have Xd := (Ap.mulr h hom ha (by norm_num) (by norm_num) (by norm_num) (by norm_num)).mono (B' := (1001 / 500)) (e' := (89981 / 1000)) (by norm_num) (by norm_num)
  have Xe := (Ap.add h Xc Xd (by norm_num) (by norm_num) (by norm_num)).mono (B' := (1001 / 125)) (e' := (43889 / 100)) (by norm_num) (by norm_num)
  have Xf := Ap.neg Xe
  exact (Ap.divr h Xf hq hy hS (by norm_num) (by norm_num) (by norm_num) (by norm_num)).mono (by norm_num) (by norm_num)

theorem ApV.ofComps {k : ℕ} {S e : ℝ} {v v' : V3} (hx : Ap k S v.x v'.x (1001 / 125) e) (hy : Ap k S v.y v'.y (1001 / 125) e)
    (hz : Ap k S v.z v'.z (1001 / 125) e) : ApV k S v v' 14 e := by
  refine ⟨hx.mono (by norm_num) le_rfl, hy.mono (by norm_num) le_rfl, hz.mono (by norm_num) le_rfl, ?_⟩
  rintro x y z rfl
  have S0 := hx.pos
  have B : ∀ {a : Dbl} {w : ℝ}, Ap k S a (fin w) (1001 / 125) e → w ^ 2 ≤ (1001 / 125 * S) ^ 2 := by
    intro a w hw
    obtain ⟨-, w', -, e1, -, e2⟩ := hw.val
    injection e1 with e1
    subst e1
    exact sq_le_sq' (abs_le.1 e2).1 (abs_le.1 e2).2
  have h1 := B hx
  have h2 := B hy
  have h3 := B hz
  nlinarith [sq_nonneg S]

variable {hn hn' ts ts' te te' u1 u1' u2 u2' v1 v1' v2 v2' : V3}

/-- all entries below the first row -/
theorem jac_core (h : NearestF 53 1074 fl) (hhn : ApV 0 1 hn hn' 1 (71 / 10)) (hts : ApV 0 1 ts ts' (1001 / 1000) 0)
    (hte : ApV 0 1 te te' (1001 / 1000) 0) (hu1 : ApV 0 1 u1 u1' 1 (61 / 10)) (hu2 : ApV 0 1 u2 u2' 1 (61 / 10))
    (hv1 : ApV 0 1 v1 v1' (1001 / 1000) 16) (hv2 : ApV 0 1 v2 v2' (1001 / 1000) 16) (hth : Ap 0 1 th th' 4 (483 / 10))
    (hs : Ap 0 1 s s' 1 (257 / 5)) (hc : Ap 0 1 r r' 1 (257 / 5)) (hq : Ap 209 Sq q q' 1 (111 / 10)) (hy : q' = fin y) (hS : Sq ≤ |y|)
    (hqp : Ap 109 Sp qp qp' 1 (101 / 10)) (hp : Ap 100 P pav pav' 1 (11 / 10)) (hcs : Ap 0 1 cs cs' (1001 / 1000) (41 / 10))
    (hci : Ap 100 Ci ci ci' 1 (51 / 10))
    {om om' tm tm' ga ga' anv anv' anu anu' : Dbl} {an1 an1' an2 an2' hu hu' hv hv' dx dx' : V3}
    (e1 : om = subD fl 1 r) (e1' : om' = 1 - r') (e2 : tm = subD fl th s) (e2' : tm' = th' - s') (e3 : ga = dotV fl hn te) (e3' : ga' = hn'.dot te')
    (e4 : anv = -dotV fl hn u2) (e4' : anv' = -hn'.dot u2') (e5 : anu = dotV fl hn v2) (e5' : anu' = hn'.dot v2')
    (e6 : an1 = crossV fl hn ts) (e6' : an1' = hn'.cross ts') (e7 : an2 = crossV fl hn te) (e7' : an2' = hn'.cross te')
    (e8 : hu = crossV fl hn u1) (e8' : hu' = hn'.cross u1') (e9 : hv = crossV fl hn v1) (e9' : hv' = hn'.cross v1')
    (e10 : dx = ⟨Rnd.jacDx fl ga tm s om q hn.x ts.x an1.x, Rnd.jacDx fl ga tm s om q hn.y ts.y an1.y, Rnd.jacDx fl ga tm s om q hn.z ts.z an1.z⟩)
    (e10' : dx' = ⟨-(ga' * tm' * hn'.x + s' * ts'.x + om' * an1'.x) / q', -(ga' * tm' * hn'.y + s' * ts'.y + om' * an1'.y) / q',
      -(ga' * tm' * hn'.z + s' * ts'.z + om' * an1'.z) / q'⟩) :
    (Ap 318 (Sp * (1 / Sq)) (mulD fl (mulD fl (-qp) anv) (dotV fl te dx)) (-qp' * anv' * te'.dot dx') 16 4000 ∧
     Ap 0 1 (jacTurn fl r s om tm ga (dotV fl v1 v2) (dotV fl hv v2) (dotV fl hn v1) (dotV fl hn v2) anv (dotV fl te v1) (dotV fl an2 v1))
       (r' * v1'.dot v2' + s' * hv'.dot v2' + om' * hn'.dot v1' * hn'.dot v2' + anv' * (-s' * te'.dot v1' + om' * an2'.dot v1' - ga' * tm' * hn'.dot v1')) 16 4000 ∧
     Ap 0 1 (mulD fl cs (jacTurn fl r s om tm ga (dotV fl u1 v2) (dotV fl hu v2) (dotV fl hn u1) (dotV fl hn v2) anv (dotV fl te u1) (dotV fl an2 u1)))
       (cs' * (r' * u1'.dot v2' + s' * hu'.dot v2' + om' * hn'.dot u1' * hn'.dot v2' + anv' * (-s' * te'.dot u1' + om' * an2'.dot u1' - ga' * tm' * hn'.dot u1')))
       16 4000 ∧
     Ap 209 Sq (mulD fl (mulD fl (-q) anv) (dotV fl te u1)) (-q' * anv' * te'.dot u1') 16 4000 ∧
     Ap 209 Sq (mulD fl (mulD fl (-q) anv) (dotV fl te v1)) (-q' * anv' * te'.dot v1') 16 4000) ∧
    (Ap 418 (Sp * (1 / Sq) * Ci) (mulD fl (mulD fl (mulD fl (-qp) anu) (dotV fl te dx)) ci) (-qp' * anu' * te'.dot dx' * ci') 16 4000 ∧
     Ap 100 Ci (mulD fl ci (jacTurn fl r s om tm ga (dotV fl v1 u2) (dotV fl hv u2) (dotV fl hn v1) (dotV fl hn u2) anu (dotV fl te v1) (dotV fl an2 v1)))
       (ci' * (r' * v1'.dot u2' + s' * hv'.dot u2' + om' * hn'.dot v1' * hn'.dot u2' + anu' * (-s' * te'.dot v1' + om' * an2'.dot v1' - ga' * tm' * hn'.dot v1')))
       16 4000 ∧
     Ap 100 Ci (mulD fl (mulD fl ci cs)
         (jacTurn fl r s om tm ga (dotV fl u1 u2) (dotV fl hu u2) (dotV fl hn u1) (dotV fl hn u2) anu (dotV fl te u1) (dotV fl an2 u1)))
       (ci' * cs' * (r' * u1'.dot u2' + s' * hu'.dot u2' + om' * hn'.dot u1' * hn'.dot u2' +
         anu' * (-s' * te'.dot u1' + om' * an2'.dot u1' - ga' * tm' * hn'.dot u1'))) 16 4000 ∧
     Ap 309 (Sq * Ci) (mulD fl (mulD fl (mulD fl (-q) anu) (dotV fl te u1)) ci) (-q' * anu' * te'.dot u1' * ci') 16 4000 ∧
     Ap 309 (Sq * Ci) (mulD fl (mulD fl (mulD fl (-q) anu) (dotV fl te v1)) ci) (-q' * anu' * te'.dot v1' * ci') 16 4000) ∧
    (Ap 309 (P * (1 / Sq)) (mulD fl pav (dotV fl u2 dx)) (pav' * u2'.dot dx') 16 4000 ∧
     Ap 209 (1 / Sq) (divD fl (jacShift fl s om tm (dotV fl v1 u2) (dotV fl hv u2) (dotV fl hn u2) (dotV fl hn v1)) q)
       ((s' * v1'.dot u2' + om' * hv'.dot u2' + tm' * hn'.dot u2' * hn'.dot v1') / q') 16 4000 ∧
     Ap 209 (1 / Sq) (divD fl (mulD fl (jacShift fl s om tm (dotV fl u1 u2) (dotV fl hu u2) (dotV fl hn u2) (dotV fl hn u1)) cs) q)
       ((s' * u1'.dot u2' + om' * hu'.dot u2' + tm' * hn'.dot u2' * hn'.dot u1') * cs' / q') 16 4000 ∧
     Ap 0 1 (dotV fl u1 u2) (u1'.dot u2') 16 4000 ∧ Ap 0 1 (dotV fl v1 u2) (v1'.dot u2') 16 4000) ∧
    (Ap 309 (P * (1 / Sq)) (mulD fl pav (dotV fl v2 dx)) (pav' * v2'.dot dx') 16 4000 ∧
     Ap 209 (1 / Sq) (divD fl (jacShift fl s om tm (dotV fl v1 v2) (dotV fl hv v2) (dotV fl hn v2) (dotV fl hn v1)) q)
       ((s' * v1'.dot v2' + om' * hv'.dot v2' + tm' * hn'.dot v2' * hn'.dot v1') / q') 16 4000 ∧
     Ap 209 (1 / Sq) (divD fl (mulD fl (jacShift fl s om tm (dotV fl u1 v2) (dotV fl hu v2) (dotV fl hn v2) (dotV fl hn u1)) cs) q)
       ((s' * u1'.dot v2' + om' * hu'.dot v2' + tm' * hn'.dot v2' * hn'.dot u1') * cs' / q') 16 4000 ∧
     Ap 0 1 (dotV fl u1 v2) (u1'.dot v2') 16 4000 ∧ Ap 0 1 (dotV fl v1 v2) (v1'.dot v2') 16 4000) := by
  have one : Ap 0 1 (1 : Dbl) 1 1 0 := Ap.unit (by simp)
  have hom := (Ap.sub h one hc (by norm_num) (by norm_num) (by norm_num)).mono (B' := 2) (e' := (53401 / 1000)) (by norm_num) (by norm_num)
  have htm := (Ap.sub h hth hs (by norm_num) (by norm_num) (by norm_num)).mono (B' := 5) (e' := (104701 / 1000)) (by norm_num) (by norm_num)
  have hga := (ApV.dot h hhn hte (by norm_num) (by norm_num) (by norm_num) (by norm_num) (by norm_num) (by norm_num)).mono (B' := (1001 / 1000)) (e' := (26353 / 1000)) (by norm_num) (by norm_num)
  have gt := (Ap.mulr h hga htm (by norm_num) (by norm_num) (by norm_num) (by norm_num)).mono (B' := (1001 / 200)) (e' := (60401 / 250)) (by norm_num) (by norm_num)
  have du := (ApV.dot h hhn hu2 (by norm_num) (by norm_num) (by norm_num) (by norm_num) (by norm_num) (by norm_num)).mono (B' := 1) (e' := (44627 / 1000)) (by norm_num) (by norm_num)
  have hanu := (ApV.dot h hhn hv2 (by norm_num) (by norm_num) (by norm_num) (by norm_num) (by norm_num) (by norm_num)).mono (B' := (1001 / 1000)) (e' := (74353 / 1000)) (by norm_num) (by norm_num)
  have hanv := Ap.neg du
  have han1 := (ApV.cross h hhn hts (by norm_num) (by norm_num) (by norm_num) (by norm_num) (by norm_num)).mono (N' := (1001 / 1000)) (e' := (3447 / 200)) (by norm_num) (by norm_num) (by norm_num)
  have han2 := (ApV.cross h hhn hte (by norm_num) (by norm_num) (by norm_num) (by norm_num) (by norm_num)).mono (N' := (1001 / 1000)) (e' := (3447 / 200)) (by norm_num) (by norm_num) (by norm_num)
  have hhu1 := (ApV.cross h hhn hu1 (by norm_num) (by norm_num) (by norm_num) (by norm_num) (by norm_num)).mono (N' := 1) (e' := (14709 / 500)) (by norm_num) (by norm_num) (by norm_num)
  have hhv1 := (ApV.cross h hhn hv1 (by norm_num) (by norm_num) (by norm_num) (by norm_num) (by norm_num)).mono (N' := (1001 / 1000)) (e' := (9847 / 200)) (by norm_num) (by norm_num) (by norm_num)
  have uu := (ApV.dot h hu1 hu2 (by norm_num) (by norm_num) (by norm_num) (by norm_num) (by norm_num) (by norm_num)).mono (B' := 1) (e' := (5203 / 125)) (by norm_num) (by norm_num)
  have uv := (ApV.dot h hu1 hv2 (by norm_num) (by norm_num) (by norm_num) (by norm_num) (by norm_num) (by norm_num)).mono (B' := (1001 / 1000)) (e' := (71347 / 1000)) (by norm_num) (by norm_num)
  have vu := (ApV.dot h hv1 hu2 (by norm_num) (by norm_num) (by norm_num) (by norm_num) (by norm_num) (by norm_num)).mono (B' := (1001 / 1000)) (e' := (71377 / 1000)) (by norm_num) (by norm_num)
  have vv := (ApV.dot h hv1 hv2 (by norm_num) (by norm_num) (by norm_num) (by norm_num) (by norm_num) (by norm_num)).mono (B' := (1003 / 1000)) (e' := (2529 / 25)) (by norm_num) (by norm_num)
  have huu := (ApV.dot h hhu1 hu2 (by norm_num) (by norm_num) (by norm_num) (by norm_num) (by norm_num) (by norm_num)).mono (B' := 1) (e' := (13956 / 125)) (by norm_num) (by norm_num)
  have huv := (ApV.dot h hhu1 hv2 (by norm_num) (by norm_num) (by norm_num) (by norm_num) (by norm_num) (by norm_num)).mono (B' := (1001 / 1000)) (e' := (141441 / 1000)) (by norm_num) (by norm_num)
  have hvu := (ApV.dot h hhv1 hu2 (by norm_num) (by norm_num) (by norm_num) (by norm_num) (by norm_num) (by norm_num)).mono (B' := (1001 / 1000)) (e' := (85591 / 500)) (by norm_num) (by norm_num)
  have hvv := (ApV.dot h hhv1 hv2 (by norm_num) (by norm_num) (by norm_num) (by norm_num) (by norm_num) (by norm_num)).mono (B' := (1003 / 1000)) (e' := (25133 / 125)) (by norm_num) (by norm_num)
  have nu1 := (ApV.dot h hhn hu1 (by norm_num) (by norm_num) (by norm_num) (by norm_num) (by norm_num) (by norm_num)).mono (B' := 1) (e' := (44627 / 1000)) (by norm_num) (by norm_num)
  have nv1 := (ApV.dot h hhn hv1 (by norm_num) (by norm_num) (by norm_num) (by norm_num) (by norm_num) (by norm_num)).mono (B' := (1001 / 1000)) (e' := (74353 / 1000)) (by norm_num) (by norm_num)
  have nu2 := (ApV.dot h hhn hu2 (by norm_num) (by norm_num) (by norm_num) (by norm_num) (by norm_num) (by norm_num)).mono (B' := 1) (e' := (44627 / 1000)) (by norm_num) (by norm_num)
  have nv2 := (ApV.dot h hhn hv2 (by norm_num) (by norm_num) (by norm_num) (by norm_num) (by norm_num) (by norm_num)).mono (B' := (1001 / 1000)) (e' := (74353 / 1000)) (by norm_num) (by norm_num)
  have tu := (ApV.dot h hte hu1 (by norm_num) (by norm_num) (by norm_num) (by norm_num) (by norm_num) (by norm_num)).mono (B' := (1001 / 1000)) (e' := (23329 / 1000)) (by norm_num) (by norm_num)
  have tv := (ApV.dot h hte hv1 (by norm_num) (by norm_num) (by norm_num) (by norm_num) (by norm_num) (by norm_num)).mono (B' := (1003 / 1000)) (e' := (6633 / 125)) (by norm_num) (by norm_num)
  have au := (ApV.dot h han2 hu1 (by norm_num) (by norm_num) (by norm_num) (by norm_num) (by norm_num) (by norm_num)).mono (B' := (1001 / 1000)) (e' := (37543 / 500)) (by norm_num) (by norm_num)
  have av := (ApV.dot h han2 hv1 (by norm_num) (by norm_num) (by norm_num) (by norm_num) (by norm_num) (by norm_num)).mono (B' := (1003 / 1000)) (e' := (13109 / 125)) (by norm_num) (by norm_num)
  rw [← e1, ← e1'] at hom
  rw [← e2, ← e2'] at htm
  rw [← e3, ← e3'] at hga
  rw [← e2, ← e2', ← e3, ← e3'] at gt
  rw [← e4, ← e4'] at hanv
  rw [← e5, ← e5'] at hanu
  rw [← e6, ← e6'] at han1
  rw [← e7, ← e7'] at han2 au av
  rw [← e8, ← e8'] at hhu1 huu huv
  rw [← e9, ← e9'] at hhv1 hvu hvv
  have hdx : ApV 209 (1 / Sq) dx dx' 14 537 := by
    rw [e10, e10']
    exact ApV.ofComps (Ap.jacDx h hq hy hS hs hom gt hhn.x hts.x han1.x) (Ap.jacDx h hq hy hS hs hom gt hhn.y hts.y han1.y)
      (Ap.jacDx h hq hy hS hs hom gt hhn.z hts.z han1.z)
  have tdx := (ApV.dot h hte hdx (by norm_num) (by norm_num) (by norm_num) (by norm_num) (by norm_num) (by norm_num)).mono (B' := 141 / 10) (e' := 1700) (by norm_num) (by norm_num)
  have udx := (ApV.dot h hu2 hdx (by norm_num) (by norm_num) (by norm_num) (by norm_num) (by norm_num) (by norm_num)).mono (B' := 141 / 10) (e' := 2000) (by norm_num) (by norm_num)
  have vdx := (ApV.dot h hv2 hdx (by norm_num) (by norm_num) (by norm_num) (by norm_num) (by norm_num) (by norm_num)).mono (B' := 141 / 10) (e' := 2400) (by norm_num) (by norm_num)
  have M : ∀ {a a' : Dbl} {B e : ℝ} (B' e' : ℝ), Ap 0 1 a a' B e → B ≤ B' → e ≤ e' → Ap 0 1 a a' B' e' := fun B' e' ha h1 h2 => ha.mono h1 h2
  have wuu := M (101 / 100) 102 uu (by norm_num) (by norm_num)
  have wuv := M (101 / 100) 102 uv (by norm_num) (by norm_num)
  have wvu := M (101 / 100) 102 vu (by norm_num) (by norm_num)
  have wvv := M (101 / 100) 102 vv (by norm_num) (by norm_num)
  have whuu := M (101 / 100) 210 huu (by norm_num) (by norm_num)
  have whuv := M (101 / 100) 210 huv (by norm_num) (by norm_num)
  have whvu := M (101 / 100) 210 hvu (by norm_num) (by norm_num)
  have whvv := M (101 / 100) 210 hvv (by norm_num) (by norm_num)
  have wnu1 := M (101 / 100) 77 nu1 (by norm_num) (by norm_num)
  have wnv1 := M (101 / 100) 77 nv1 (by norm_num) (by norm_num)
  have wnu2 := M (101 / 100) 77 nu2 (by norm_num) (by norm_num)
  have wnv2 := M (101 / 100) 77 nv2 (by norm_num) (by norm_num)
  have wanu := M (101 / 100) 77 hanu (by norm_num) (by norm_num)
  have wanv := M (101 / 100) 77 hanv (by norm_num) (by norm_num)
  have wtu := M (101 / 100) 54 tu (by norm_num) (by norm_num)
  have wtv := M (101 / 100) 54 tv (by norm_num) (by norm_num)
  have wau := M (101 / 100) 110 au (by norm_num) (by norm_num)
  have wav := M (101 / 100) 110 av (by norm_num) (by norm_num)
  clear M
  have qv := (Ap.mull h hqp.neg wanv (by norm_num) (by norm_num) (by norm_num) (by norm_num)).mono (B' := 102 / 100) (e' := 90) (by norm_num) (by norm_num)
  have qu := (Ap.mull h hqp.neg wanu (by norm_num) (by norm_num) (by norm_num) (by norm_num)).mono (B' := 102 / 100) (e' := 90) (by norm_num) (by norm_num)
  have rv := (Ap.mull h hq.neg wanv (by norm_num) (by norm_num) (by norm_num) (by norm_num)).mono (B' := 102 / 100) (e' := 91) (by norm_num) (by norm_num)
  have ru := (Ap.mull h hq.neg wanu (by norm_num) (by norm_num) (by norm_num) (by norm_num)).mono (B' := 102 / 100) (e' := 91) (by norm_num) (by norm_num)
  have up : Ap 318 (Sp * (1 / Sq)) (mulD fl (mulD fl (-qp) anu) (dotV fl te dx)) (-qp' * anu' * te'.dot dx') 15 3100 :=
    (Ap.mul h qu tdx (by norm_num) (by norm_num) (by norm_num) (by norm_num)).mono (by norm_num) (by norm_num)
  have ru1 := (Ap.mull h ru wtu (by norm_num) (by norm_num) (by norm_num) (by norm_num)).mono (B' := 2) (e' := 200) (by norm_num) (by norm_num)
  have ru2 := (Ap.mull h ru wtv (by norm_num) (by norm_num) (by norm_num) (by norm_num)).mono (B' := 2) (e' := 200) (by norm_num) (by norm_num)
  have cc := (Ap.mull h hci hcs (by norm_num) (by norm_num) (by norm_num) (by norm_num)).mono (B' := 101 / 100) (e' := 12) (by norm_num) (by norm_num)
  refine ⟨⟨?_, ?_, ?_, ?_, ?_⟩, ⟨?_, ?_, ?_, ?_, ?_⟩, ⟨?_, ?_, ?_, ?_, ?_⟩, ⟨?_, ?_, ?_, ?_, ?_⟩⟩
  · have k := Ap.mul h qv tdx (by norm_num) (by norm_num) (by norm_num) (by norm_num)
    exact (k.rescale (l := 318) (c := 1) (by rw [one_mul]) ((one_div_le_one_div_of_le (by positivity) (pow_le_pow_right₀ (by norm_num) (by norm_num))).trans k.lo)
      (k.hi.trans (pow_le_pow_right₀ (by norm_num) (by norm_num)))).mono (by norm_num) (by norm_num)
  · exact (Ap.turn h hc hs hom htm hga wvv whvv wnv1 wnv2 wanv wtv wav).mono (by norm_num) (by norm_num)
  · exact (Ap.mulr h hcs (Ap.turn h hc hs hom htm hga wuv whuv wnu1 wnv2 wanv wtu wau) (by norm_num) (by norm_num) (by norm_num) (by norm_num)).mono (by norm_num) (by norm_num)
  · exact (Ap.mull h rv wtu (by norm_num) (by norm_num) (by norm_num) (by norm_num)).mono (by norm_num) (by norm_num)
  · exact (Ap.mull h rv wtv (by norm_num) (by norm_num) (by norm_num) (by norm_num)).mono (by norm_num) (by norm_num)
  · have k := Ap.mul h up hci (by norm_num) (by norm_num) (by norm_num) (by norm_num)
    exact (k.rescale (l := 418) (c := 1) (by rw [one_mul]) ((one_div_le_one_div_of_le (by positivity) (pow_le_pow_right₀ (by norm_num) (by norm_num))).trans k.lo)
      (k.hi.trans (pow_le_pow_right₀ (by norm_num) (by norm_num)))).mono (by norm_num) (by norm_num)
  · exact (Ap.mull h hci (Ap.turn h hc hs hom htm hga wvu whvu wnv1 wnu2 wanu wtv wav) (by norm_num) (by norm_num) (by norm_num) (by norm_num)).mono (by norm_num) (by norm_num)
  · exact (Ap.mull h cc (Ap.turn h hc hs hom htm hga wuu whuu wnu1 wnu2 wanu wtu wau) (by norm_num) (by norm_num) (by norm_num) (by norm_num)).mono (by norm_num) (by norm_num)
  · exact (Ap.mul h ru1 hci (by norm_num) (by norm_num) (by norm_num) (by norm_num)).mono (by norm_num) (by norm_num)
  · exact (Ap.mul h ru2 hci (by norm_num) (by norm_num) (by norm_num) (by norm_num)).mono (by norm_num) (by norm_num)
  · exact (Ap.mul h hp udx (by norm_num) (by norm_num) (by norm_num) (by norm_num)).mono (by norm_num) (by norm_num)
  · exact (Ap.divr h (Ap.shift h hs hom htm wvu whvu wnu2 wnv1) hq hy hS (by norm_num) (by norm_num) (by norm_num) (by norm_num)).mono (by norm_num) (by norm_num)
  · exact (Ap.divr h (Ap.mull h (Ap.shift h hs hom htm wuu whuu wnu2 wnu1) hcs (by norm_num) (by norm_num) (by norm_num) (by norm_num)) hq hy hS (by norm_num) (by norm_num) (by norm_num) (by norm_num)).mono (by norm_num) (by norm_num)
  · exact uu.mono (by norm_num) (by norm_num)
  · exact vu.mono (by norm_num) (by norm_num)
  · exact (Ap.mul h hp vdx (by norm_num) (by norm_num) (by norm_num) (by norm_num)).mono (by norm_num) (by norm_num)
  · exact (Ap.divr h (Ap.shift h hs hom htm wvv whvv wnv2 wnv1) hq hy hS (by norm_num) (by norm_num) (by norm_num) (by norm_num)).mono (by norm_num) (by norm_num)
  · exact (Ap.divr h (Ap.mull h (Ap.shift h hs hom htm wuv whuv wnv2 wnu1) hcs (by norm_num) (by norm_num) (by norm_num) (by norm_num)) hq hy hS (by norm_num) (by norm_num) (by norm_num) (by norm_num)).mono (by norm_num) (by norm_num)
  · exact uv.mono (by norm_num) (by norm_num)
  · exact vv.mono (by norm_num) (by norm_num)

end

end Rnd

end Verif
