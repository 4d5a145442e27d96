import Verif.Model.RoundedUtilities
import Verif.Lemmas.RoundedNewton
import Verif.Lemmas.RoundedPropagation

/-!
# Lemmas: frames and projections in double precision
-/

open Classical

noncomputable section

namespace Verif

open Dbl Spec

namespace Rnd

variable {fl : ℝ → ℝ} {lm : Libm} {atn tn : ℝ → ℝ}

theorem zero_ap (k : ℕ) {S : ℝ} (h1 : 1 / 2 ^ k ≤ S) (h2 : S ≤ 2 ^ k) : Ap k S 0 0 0 0 := by
  rw [zero_eq]
  exact Ap.given h1 h2 (by simp)

theorem one_ap : Ap 0 1 (1 : Dbl) 1 1 0 := by
  rw [one_eq]
  exact Ap.unit (by simp)

/-- the curvilinear frame -/
theorem frame_ap (h : NearestF 53 1074 fl) (hl : IsLibm lm) (ha : IsAtan atn) {om tl ph d z s : ℝ} (hp : |ph| ≤ 8) (ho : |om * s| ≤ 8) :
    ApV 0 1 (Rnd.calculateLocalCurvilinearSystem fl lm atn (fin s) (hpR om tl ph d z)).1
      (Verif.calculateLocalCurvilinearSystem (fin s) (hpR om tl ph d z)).1 1 38 ∧
    ApV 0 1 (Rnd.calculateLocalCurvilinearSystem fl lm atn (fin s) (hpR om tl ph d z)).2
      (Verif.calculateLocalCurvilinearSystem (fin s) (hpR om tl ph d z)).2 1 38 := by
  have an := (angle_ap h (hp.trans (by norm_num)) (ho.trans (by norm_num))).mono (B' := 16) (e' := 25) (by linarith) (by linarith)
  have sp := (Ap.sin hl an).mono (B' := 1) (e' := 28) le_rfl (by norm_num)
  have cp := (Ap.cos hl an).mono (B' := 1) (e' := 28) le_rfl (by norm_num)
  have la := atan_ap (fl := fl) ha tl
  have sl := (Ap.sin hl la).mono (B' := 1) (e' := 8) le_rfl (by norm_num)
  have cl := (Ap.cos hl la).mono (B' := 1) (e' := 8) le_rfl (by norm_num)
  constructor
  · refine ⟨sp.neg.mono le_rfl (by norm_num), cp.mono le_rfl (by norm_num), (zero_ap 0 (by norm_num) (by norm_num)).mono (by norm_num) (by norm_num), ?_⟩
    intro x y z' hv
    simp only [Verif.calculateLocalCurvilinearSystem, calculateCurvature_hpR, calculatePhi0_hpR, calculateLambda_hpR, fin_mul,
      fin_sub, sin_fin, cos_fin, fin_neg, zero_eq, V3.mk.injEq, fin.injEq] at hv
    obtain ⟨rfl, rfl, rfl⟩ := hv
    have := Real.cos_sq_add_sin_sq (ph - om * s)
    nlinarith
  · refine ⟨?_, ?_, cl.mono le_rfl (by norm_num), ?_⟩
    · exact (Ap.mulr h cp.neg sl (by norm_num) (by norm_num) (by norm_num) (by norm_num)).mono (by norm_num) (by norm_num)
    · exact (Ap.mulr h sp.neg sl (by norm_num) (by norm_num) (by norm_num) (by norm_num)).mono (by norm_num) (by norm_num)
    intro x y z' hv
    simp only [Verif.calculateLocalCurvilinearSystem, calculateCurvature_hpR, calculatePhi0_hpR, calculateLambda_hpR, fin_mul,
      fin_sub, sin_fin, cos_fin, fin_neg, V3.mk.injEq, fin.injEq] at hv
    obtain ⟨rfl, rfl, rfl⟩ := hv
    have h1 := Real.cos_sq_add_sin_sq (ph - om * s)
    have h2 := Real.cos_sq_add_sin_sq (Real.arctan tl)
    generalize Real.cos (ph - om * s) = c at *
    generalize Real.sin (ph - om * s) = σ at *
    generalize Real.cos (Real.arctan tl) = C at *
    generalize Real.sin (Real.arctan tl) = S at *
    have : (-c * S) ^ 2 + (-σ * S) ^ 2 + C ^ 2 = 1 := by linear_combination h2 + S ^ 2 * h1
    rw [this]
    norm_num

/-- the quotient by the determinant, in units of 2^-53 -/
theorem Ap.overDet (h : NearestF 53 1074 fl) {y : ℝ} {a a' D D' : Dbl} (ha : Ap 0 1 a a' (3 / 2) 230) (hD : Ap 0 1 D D' (9 / 2) 1391) (hy : D' = fin y)
    (h0 : 1 / 2 ^ 25 ≤ |y|) : ∃ r x, divD fl a D = fin r ∧ a' / D' = fin x ∧ |r - x| ≤ 1 / 2 ^ 41 / y ^ 2 := by
  have yp : 0 < |y| := lt_of_lt_of_le (by positivity) h0
  have y1 : |y| ≤ 9 / 2 := by
    obtain ⟨r, x, -, e2, -, e4⟩ := hD.val
    rw [e2] at hy
    injection hy with hy
    rwa [hy, mul_one] at e4
  have h0' : 1 / |y| ≤ 2 ^ 25 := by
    rw [div_le_iff₀ yp]
    rw [div_le_iff₀ (by positivity)] at h0
    linarith
  have hi : |y| * (1 / |y|) = 1 := by field_simp
  have ip : 0 < 1 / |y| := by positivity
  have D1 : Ap 25 |y| D D' (1 / |y| * (9 / 2)) (1 / |y| * 1391) :=
    hD.rescale (l := 25) (T := |y|) (c := 1 / |y|) (by rw [mul_comm]; exact hi.ge) h0 (y1.trans (by norm_num))
  have k1 : 1001 / 1000 * (230 + 3 / 2 * (1 / |y| * 1391)) ≤ 2 ^ 40 := by norm_num at h0' ⊢; linarith
  have k2 : 1 / |y| * 1391 ≤ 2 ^ 40 := by norm_num at h0' ⊢; linarith
  have R := (Ap.divr h ha D1 hy le_rfl (by norm_num) k2 k1 (by norm_num)).val
  obtain ⟨r, x, e1, e2, e3, -⟩ := R
  refine ⟨r, x, e1, e2, e3.trans ?_⟩
  have k3 : 1001 / 1000 * (230 + 3 / 2 * (1 / |y| * 1391)) + 3 / 2 + 1 / 1000 ≤ 4096 * (1 / |y|) := by
    have : 1 ≤ 9 / 2 * (1 / |y|) := by
      have := mul_le_mul_of_nonneg_right y1 ip.le
      rwa [hi] at this
    linarith
  have k4 := mul_le_mul_of_nonneg_right k3 (show 0 ≤ 1 / |y| * (1 / 2 ^ 53) by positivity)
  refine k4.trans (le_of_eq ?_)
  rw [← sq_abs y]
  field_simp
  norm_num

/-- the projection for two directions -/
theorem projection_ap (h : NearestF 53 1074 fl) {U U' V V' m m' o o' : V3} (hU : ApV 0 1 U U' 1 38) (hV : ApV 0 1 V V' 1 38)
    (hm : ApV 0 1 m m' (3 / 2) 17) (ho : ApV 0 1 o o' (3 / 2) 17) {y : ℝ} (hy : m'.dot U' * o'.dot V' - m'.dot V' * o'.dot U' = fin y)
    (h0 : 1 / 2 ^ 25 ≤ |y|) :
    ∃ P P' : Fin 4 → ℝ, (ifc ¬ Dbl.eqv (subD fl (mulD fl (dotV fl m U) (dotV fl o V)) (mulD fl (dotV fl m V) (dotV fl o U))) 0 then
      (.ok ![divD fl (dotV fl o V) (subD fl (mulD fl (dotV fl m U) (dotV fl o V)) (mulD fl (dotV fl m V) (dotV fl o U))),
        divD fl (-dotV fl m V) (subD fl (mulD fl (dotV fl m U) (dotV fl o V)) (mulD fl (dotV fl m V) (dotV fl o U))),
        divD fl (-dotV fl o U) (subD fl (mulD fl (dotV fl m U) (dotV fl o V)) (mulD fl (dotV fl m V) (dotV fl o U))),
        divD fl (dotV fl m U) (subD fl (mulD fl (dotV fl m U) (dotV fl o V)) (mulD fl (dotV fl m V) (dotV fl o U)))] : Out (Fin 4 → Dbl))
      else .throw "Projection matrix can't be inverted, bailing out.") = .ok (fun i => fin (P i)) ∧
      (![o'.dot V' / fin y, -m'.dot V' / fin y, -o'.dot U' / fin y, m'.dot U' / fin y] = fun i => fin (P' i)) ∧
      ∀ i, |P i - P' i| ≤ 1 / 2 ^ 41 / y ^ 2 := by
  have wa := (ApV.dot h hm hU (by norm_num) (by norm_num) (by norm_num) (by norm_num) (by norm_num) (by norm_num)).mono (B' := 3 / 2) (e' := 230) (by norm_num) (by norm_num)
  have wb := (ApV.dot h hm hV (by norm_num) (by norm_num) (by norm_num) (by norm_num) (by norm_num) (by norm_num)).mono (B' := 3 / 2) (e' := 230) (by norm_num) (by norm_num)
  have wc := (ApV.dot h ho hU (by norm_num) (by norm_num) (by norm_num) (by norm_num) (by norm_num) (by norm_num)).mono (B' := 3 / 2) (e' := 230) (by norm_num) (by norm_num)
  have wd := (ApV.dot h ho hV (by norm_num) (by norm_num) (by norm_num) (by norm_num) (by norm_num) (by norm_num)).mono (B' := 3 / 2) (e' := 230) (by norm_num) (by norm_num)
  have ad := (Ap.mulr h wa wd (by norm_num) (by norm_num) (by norm_num) (by norm_num)).mono (B' := 9 / 4) (e' := 693) (by norm_num) (by norm_num)
  have bc := (Ap.mulr h wb wc (by norm_num) (by norm_num) (by norm_num) (by norm_num)).mono (B' := 9 / 4) (e' := 693) (by norm_num) (by norm_num)
  have dt := (Ap.sub h ad bc (by norm_num) (by norm_num) (by norm_num)).mono (B' := 9 / 2) (e' := 1391) (by norm_num) (by norm_num)
  obtain ⟨r1, x1, p1, q1, s1⟩ := Ap.overDet h wd dt hy h0
  obtain ⟨r2, x2, p2, q2, s2⟩ := Ap.overDet h wb.neg dt hy h0
  obtain ⟨r3, x3, p3, q3, s3⟩ := Ap.overDet h wc.neg dt hy h0
  obtain ⟨r4, x4, p4, q4, s4⟩ := Ap.overDet h wa dt hy h0
  refine ⟨![r1, r2, r3, r4], ![x1, x2, x3, x4], ?_, ?_, ?_⟩
  · have nz : ¬ Dbl.eqv (subD fl (mulD fl (dotV fl m U) (dotV fl o V)) (mulD fl (dotV fl m V) (dotV fl o U))) 0 := by
      obtain ⟨r, x, e1, e2, e3, -⟩ := dt.val
      rw [e2] at hy
      injection hy with hy
      rw [e1, zero_eq, fin_eqv]
      rintro rfl
      rw [zero_sub, abs_neg, hy] at e3
      have : (1391 : ℝ) * (1 * (1 / 2 ^ 53)) < 1 / 2 ^ 25 := by norm_num
      linarith
    rw [cif_pos nz, p1, p2, p3, p4]
    congr 1
    funext i
    fin_cases i <;> rfl
  · rw [hy] at q1 q2 q3 q4
    rw [q1, q2, q3, q4]
    funext i
    fin_cases i <;> rfl
  · intro i
    fin_cases i
    exacts [s1, s2, s3, s4]

/-! ### the companion direction -/

/-- the first choice for the companion of a unit vector -/
def ortho1 (u : R3) : R3 := ![u 2, u 2, -u 0 - u 1]

/-- the second choice -/
def ortho2 (u : R3) : R3 := ![-u 1 - u 2, u 0, u 0]

theorem fl_nonneg (h : NearestF 53 1074 fl) {x : ℝ} (hx : 0 ≤ x) : 0 ≤ fl x := by
  have := h.near x 0 repF_zero
  rw [zero_sub, abs_neg, abs_of_nonneg hx] at this
  linarith [neg_le_of_abs_le this]

theorem rnd_nonneg (h : NearestF 53 1074 fl) {x r : ℝ} (hx : 0 ≤ x) (e : rnd fl 1024 (fin x) = fin r) : 0 ≤ r := by
  simp only [rnd] at e
  split_ifs at e with k
  injection e with e
  exact e ▸ fl_nonneg h hx

/-- the length of a vector is compared with 10^-6 -/
theorem short_iff (h : NearestF 53 1074 fl) {v v' : V3} (hv : ApV 0 1 v v' (3 / 2) 17) {y : ℝ} (hy : v'.dot v' = fin y) :
    ((11 / 10 * (1 / 10 ^ 6)) ^ 2 ≤ y → ¬ rV fl v < rnd fl 1024 (1e-6 : Dbl)) ∧ (y ≤ (9 / 10 * (1 / 10 ^ 6)) ^ 2 → rV fl v < rnd fl 1024 (1e-6 : Dbl)) := by
  have k := (ApV.dot h hv hv (by norm_num) (by norm_num) (by norm_num) (by norm_num) (by norm_num) (by norm_num)).mono (B' := 9 / 4) (e' := 166)
    (by norm_num) (by norm_num)
  obtain ⟨d, y', e1, e2, e3, e4⟩ := k.val
  rw [hy] at e2
  injection e2 with e2
  subst e2
  -- the sum of squares is not negative
  have d0 : 0 ≤ d := by
    obtain ⟨a, -, ea, -⟩ := hv.x.val
    obtain ⟨b, -, eb, -⟩ := hv.y.val
    obtain ⟨c, -, ec, -⟩ := hv.z.val
    simp only [dotV, ea, eb, ec, mulD, addD, fin_mul] at e1
    have P : ∀ x : ℝ, rnd fl 1024 (fin (x * x)) = .inf false ∨ ∃ r, 0 ≤ r ∧ rnd fl 1024 (fin (x * x)) = fin r := by
      intro x
      simp only [rnd]
      split_ifs
      · exact Or.inr ⟨_, fl_nonneg h (mul_self_nonneg x), rfl⟩
      · left
        simp [mul_self_nonneg x]
    have Q : ∀ p q : Dbl, (p = .inf false ∨ ∃ r, 0 ≤ r ∧ p = fin r) → (q = .inf false ∨ ∃ r, 0 ≤ r ∧ q = fin r) →
        (rnd fl 1024 (p + q) = .inf false ∨ ∃ r, 0 ≤ r ∧ rnd fl 1024 (p + q) = fin r) := by
      rintro p q (rfl | ⟨r, r0, rfl⟩) (rfl | ⟨t, t0, rfl⟩)
      · exact Or.inl rfl
      · exact Or.inl rfl
      · exact Or.inl rfl
      · rw [fin_add]
        simp only [rnd]
        split_ifs
        · exact Or.inr ⟨_, fl_nonneg h (by positivity), rfl⟩
        · left
          simp only [Dbl.inf.injEq, decide_eq_false_iff_not, not_lt]
          positivity
    rcases Q _ _ (Q _ _ (P a) (P b)) (P c) with w | ⟨r, r0, w⟩
    · rw [w] at e1
      exact absurd e1 (by simp)
    · rw [w] at e1
      injection e1 with e1
      exact e1 ▸ r0
  have y0 : |y| ≤ 9 / 4 := by rwa [mul_one] at e4
  have dy : |d - y| ≤ 1 / 10 ^ 13 / 2 := e3.trans (by norm_num)
  have dle : d ≤ 3 := by
    have := abs_le.1 dy
    have := abs_le.1 y0
    linarith
  have s2 : √d ≤ 2 := Real.sqrt_le_iff.2 ⟨by norm_num, by linarith⟩
  -- the two roundings
  have r1 := (Ap.round h (k := 0) (S := 1) (B := 2) (e := 0) (t := √d) (x := √d) (by norm_num) (by norm_num) (by norm_num) (by norm_num) (by norm_num)
    (by simp) (by rw [mul_one, abs_of_nonneg (Real.sqrt_nonneg d)]; exact s2)).val
  have r2 := (Ap.round h (k := 0) (S := 1) (B := 1) (e := 0) (t := 1e-6) (x := 1e-6) (by norm_num) (by norm_num) (by norm_num) (by norm_num) (by norm_num)
    (by simp) (by norm_num)).val
  obtain ⟨ρ, x1, f1, f2, f3, -⟩ := r1
  obtain ⟨τ, x2, g1, g2, g3, -⟩ := r2
  injection f2 with f2
  injection g2 with g2
  subst f2
  subst g2
  have f3' := abs_le.1 (f3.trans (show _ ≤ 1 / 10 ^ 12 by norm_num))
  have g3' := abs_le.1 (g3.trans (show _ ≤ 1 / 10 ^ 12 by norm_num))
  have rr : rV fl v = fin ρ := by
    rw [rV, e1, sqrtD, sqrt_fin d0, f1]
  have tt : rnd fl 1024 (1e-6 : Dbl) = fin τ := by
    rw [ofSci_eq]
    exact g1
  rw [rr, tt, fin_lt]
  have dy' := abs_le.1 dy
  have t1 : τ ≤ 1.00001e-6 := by norm_num at g3' ⊢; linarith
  have t2 : 0.99999e-6 ≤ τ := by norm_num at g3' ⊢; linarith
  constructor
  · intro hge
    have : 1.01e-6 ≤ √d := by
      refine Real.le_sqrt_of_sq_le ?_
      norm_num at hge dy' ⊢
      linarith
    norm_num at this t1 f3' ⊢
    linarith
  · intro hle
    have : √d ≤ 0.99e-6 := by
      refine Real.sqrt_le_iff.2 ⟨by norm_num, ?_⟩
      norm_num at hle dy' ⊢
      linarith
    norm_num at this t2 f3' ⊢
    linarith

theorem companion_ap (h : NearestF 53 1074 fl) {m : R3} (h1 : 1 / 2 ^ 100 ≤ √(dot m m)) (h2 : √(dot m m) ≤ 2 ^ 100) :
    ((11 / 10 * (1 / 10 ^ 6)) ^ 2 ≤ dot (ortho1 ((1 / √(dot m m)) • m)) (ortho1 ((1 / √(dot m m)) • m)) →
      ApV 0 1 (Rnd.companionDirection fl (V3.of m)) (V3.of (ortho1 ((1 / √(dot m m)) • m))) (3 / 2) 17) ∧
    (dot (ortho1 ((1 / √(dot m m)) • m)) (ortho1 ((1 / √(dot m m)) • m)) ≤ (9 / 10 * (1 / 10 ^ 6)) ^ 2 →
      ApV 0 1 (Rnd.companionDirection fl (V3.of m)) (V3.of (ortho2 ((1 / √(dot m m)) • m))) (3 / 2) 17) := by
  have np : 0 < √(dot m m) := lt_of_lt_of_le (by positivity) h1
  have hu := unit_ap h h1 h2
  rw [ofV_unit m np.ne'] at hu
  generalize hμ : (1 / √(dot m m)) • m = u at *
  have ul : u 0 ^ 2 + u 1 ^ 2 + u 2 ^ 2 ≤ 1 := by
    have := hu.len _ _ _ rfl
    rwa [mul_one, one_pow] at this
  have hx : Ap 0 1 (unitV fl (V3.of m)).x (fin (u 0)) 1 (71 / 10) := hu.x
  have hy : Ap 0 1 (unitV fl (V3.of m)).y (fin (u 1)) 1 (71 / 10) := hu.y
  have hz : Ap 0 1 (unitV fl (V3.of m)).z (fin (u 2)) 1 (71 / 10) := hu.z
  have B : ∀ a b c : ℝ, a ^ 2 + b ^ 2 + c ^ 2 ≤ 1 → |-a - b| ≤ 3 / 2 := by
    intro a b c q
    refine abs_le_of_sq_le_sq ?_ (by norm_num)
    nlinarith [sq_nonneg (a - b), sq_nonneg c]
  have sxy : Ap 0 1 (subD fl (-(unitV fl (V3.of m)).x) (unitV fl (V3.of m)).y) (-fin (u 0) - fin (u 1)) (3 / 2) 17 := by
    refine (Ap.subB h hx.neg hy (D := 3 / 2) ?_ (by norm_num) (by norm_num) (by norm_num)).mono le_rfl (by norm_num)
    intro x e
    rw [fin_neg, fin_sub] at e
    injection e with e
    rw [← e, mul_one]
    exact B _ _ _ ul
  have syz : Ap 0 1 (subD fl (-(unitV fl (V3.of m)).y) (unitV fl (V3.of m)).z) (-fin (u 1) - fin (u 2)) (3 / 2) 17 := by
    refine (Ap.subB h hy.neg hz (D := 3 / 2) ?_ (by norm_num) (by norm_num) (by norm_num)).mono le_rfl (by norm_num)
    intro x e
    rw [fin_neg, fin_sub] at e
    injection e with e
    rw [← e, mul_one]
    exact B (u 1) (u 2) (u 0) (by linarith)
  rw [fin_neg, fin_sub] at sxy syz
  have o1 : ApV 0 1 ⟨(unitV fl (V3.of m)).z, (unitV fl (V3.of m)).z, subD fl (-(unitV fl (V3.of m)).x) (unitV fl (V3.of m)).y⟩ (V3.of (ortho1 u))
      (3 / 2) 17 := by
    refine ⟨hz.mono (by norm_num) (by norm_num), hz.mono (by norm_num) (by norm_num), sxy, ?_⟩
    intro x y z e
    simp only [V3.of, V3.re, ortho1, V3.mk.injEq, fin.injEq, Matrix.cons_val_zero, Matrix.cons_val_one, Matrix.cons_val] at e
    obtain ⟨rfl, rfl, rfl⟩ := e
    nlinarith [sq_nonneg (u 0 - u 1)]
  have o2 : ApV 0 1 ⟨subD fl (-(unitV fl (V3.of m)).y) (unitV fl (V3.of m)).z, (unitV fl (V3.of m)).x, (unitV fl (V3.of m)).x⟩ (V3.of (ortho2 u))
      (3 / 2) 17 := by
    refine ⟨syz, hx.mono (by norm_num) (by norm_num), hx.mono (by norm_num) (by norm_num), ?_⟩
    intro x y z e
    simp only [V3.of, V3.re, ortho2, V3.mk.injEq, fin.injEq, Matrix.cons_val_zero, Matrix.cons_val_one, Matrix.cons_val] at e
    obtain ⟨rfl, rfl, rfl⟩ := e
    nlinarith [sq_nonneg (u 1 - u 2)]
  have dd : (V3.of (ortho1 u)).dot (V3.of (ortho1 u)) = fin (dot (ortho1 u) (ortho1 u)) := by
    simp only [V3.dot, V3.of, V3.re, fin_mul, fin_add, dot]
  obtain ⟨q1, q2⟩ := short_iff h o1 dd
  constructor
  · intro k
    unfold Rnd.companionDirection
    simp only []
    rw [cif_neg (q1 k)]
    exact o1
  · intro k
    unfold Rnd.companionDirection
    simp only []
    rw [cif_pos (q2 k)]
    exact o2

end Rnd

end Verif
