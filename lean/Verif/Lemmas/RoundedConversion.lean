import Verif.Lemmas.RoundedUtilities
import Verif.Lemmas.RoundedMaterial

/-!
# Lemmas: the transformation of track parameters in double precision
-/

open Classical

noncomputable section

namespace Verif

open Dbl Spec

namespace Rnd

variable {fl : ℝ → ℝ} {lm : Libm} {atn tn : ℝ → ℝ}

/-! ### sums in which all terms but one vanish -/

theorem rnd_fin_fix (h : NearestF 53 1074 fl) {a : Dbl} {x : ℝ} (e : rnd fl 1024 a = fin x) : rnd fl 1024 (fin x) = fin x := by
  cases a with
  | fin t =>
    simp only [rnd] at e
    split_ifs at e with k
    injection e with e
    subst e
    simp only [rnd, h.fix (h.rep t)]
    rw [if_pos k]
  | inf s => simp [rnd] at e
  | nan => simp [rnd] at e

theorem sum_single (h : NearestF 53 1074 fl) {x : ℝ} (hx : rnd fl 1024 (fin x) = fin x) (x0 : x ≠ 0) {l : List Dbl} {a : Dbl} (hs : SumOf fl l a) :
    (∀ y ∈ l, y = fin 0 ∨ y = fin x) → l.count (fin x) ≤ 1 → a = if fin x ∈ l then fin x else fin 0 := by
  induction hs with
  | one a =>
    intro h1 _
    rcases h1 a (by simp) with rfl | rfl
    · simp [x0]
    · simp
  | @add l m a b _ _ ih1 ih2 =>
    intro h1 h2
    rw [List.count_append] at h2
    have i1 := ih1 (fun y hy => h1 y (by simp [hy])) (by omega)
    have i2 := ih2 (fun y hy => h1 y (by simp [hy])) (by omega)
    rw [i1, i2, addD]
    by_cases p : fin x ∈ l <;> by_cases q : fin x ∈ m
    · have := List.one_le_count_iff.2 p
      have := List.one_le_count_iff.2 q
      omega
    · simp [p, q, fin_add, hx]
    · simp [p, q, fin_add, hx]
    · simp [p, q, fin_add, rnd_zero h]
  | @perm l m a hp _ ih =>
    intro h1 h2
    have := ih (fun y hy => h1 y (hp.mem_iff.1 hy)) (by rwa [hp.count_eq])
    rw [this]
    simp [hp.mem_iff]

theorem sum_zero (h : NearestF 53 1074 fl) {l : List Dbl} {a : Dbl} (hs : SumOf fl l a) : (∀ y ∈ l, y = fin 0) → a = fin 0 := by
  induction hs with
  | one a => exact fun h1 => h1 a (by simp)
  | @add l m a b _ _ ih1 ih2 =>
    intro h1
    rw [ih1 (fun y hy => h1 y (by simp [hy])), ih2 (fun y hy => h1 y (by simp [hy])), addD, fin_add, add_zero, rnd_zero h]
  | @perm l m a hp _ ih => exact fun h1 => ih (fun y hy => h1 y (hp.mem_iff.1 hy))

/-- the product with a diagonal matrix, in whatever order the sums are computed -/
theorem product_diag (h : NearestF 53 1074 fl) {mm : M5 → M5 → M5} (hm : IsProduct fl mm) {a b : M5} (ha : ∀ i k, k ≠ i → a i k = fin 0)
    {i j : Fin 5} (hb : ∀ k, ∃ y, b k j = fin y) {x : ℝ} (hx : mulD fl (a i i) (b i j) = fin x) : mm a b i j = fin x := by
  have z : ∀ k, k ≠ i → mulD fl (a i k) (b k j) = fin 0 := by
    intro k hk
    obtain ⟨y, hy⟩ := hb k
    rw [ha i k hk, hy, mulD, fin_mul, zero_mul, rnd_zero h]
  have hs := hm a b i j
  by_cases x0 : x = 0
  · subst x0
    refine sum_zero h hs ?_
    intro y hy
    obtain ⟨k, -, rfl⟩ := List.mem_map.1 hy
    by_cases hk : k = i
    · rw [hk, hx]
    · exact z k hk
  · have hf := rnd_fin_fix h (show rnd fl 1024 (a i i * b i j) = fin x from hx)
    have := sum_single h hf x0 hs ?_ ?_
    · rw [this, if_pos]
      exact List.mem_map.2 ⟨i, List.mem_finRange i, hx⟩
    · intro y hy
      obtain ⟨k, -, rfl⟩ := List.mem_map.1 hy
      by_cases hk : k = i
      · exact Or.inr (by rw [hk, hx])
      · exact Or.inl (z k hk)
    · rw [List.count, List.countP_map]
      refine (List.countP_mono_left (q := fun k => k == i) ?_).trans ?_
      · intro k _ hk
        simp only [Function.comp, beq_iff_eq] at hk ⊢
        by_contra hne
        rw [z k hne] at hk
        injection hk with hk
        exact x0 hk.symm
      · exact List.nodup_iff_count_le_one.1 (List.nodup_finRange 5) i

/-! ### the dip angle -/

theorem tan_ap (ha : IsAtan atn) (ht : IsTan tn) {tl T : ℝ} (hT : T * T = 1 + tl * tl) (T0 : 0 < T) (htl : |tl| ≤ 100) :
    Ap 7 T (tanD tn (atanD fl atn (fin tl))) (Dbl.tan (Dbl.atan (fin tl))) 1 510 := by
  have T1 : 1 ≤ T := by nlinarith [sq_nonneg tl]
  have tT : |tl| ≤ T := abs_le_of_sq_le_sq (by nlinarith) T0.le
  have T2 : T ≤ 101 := by
    have := sq_le_sq' (by linarith [(abs_le.1 htl).1]) (abs_le.1 htl).2
    nlinarith
  obtain ⟨r, x, e1, e2, e3, -⟩ := (atan_ap (fl := fl) ha tl).val
  rw [atan_fin] at e2
  injection e2 with e2
  subst e2
  have c0 := Real.cos_arctan_pos tl
  have cT : Real.cos (Real.arctan tl) = 1 / T := by
    rw [Real.cos_arctan, show (1 : ℝ) + tl ^ 2 = T ^ 2 by linarith, Real.sqrt_sq T0.le]
  have rx : |r - Real.arctan tl| ≤ 5 / 2 ^ 53 := by linarith
  have iT : 1 / 101 ≤ 1 / T := one_div_le_one_div_of_le T0 T2
  have T1' : 1 / T * T = 1 := by field_simp
  have cr : 999 / 1000 * (1 / T) ≤ Real.cos r := by
    have k := (Real.abs_cos_sub_cos_le r (Real.arctan tl)).trans rx
    rw [cT] at k
    have := (abs_le.1 k).1
    have : (5 : ℝ) / 2 ^ 53 ≤ 1 / 1000 * (1 / 101) := by norm_num
    linarith
  have cr0 : 0 < Real.cos r := lt_of_lt_of_le (by positivity) cr
  -- the addition theorem
  have dt : Real.tan r - tl = Real.sin (r - Real.arctan tl) / (Real.cos r * Real.cos (Real.arctan tl)) := by
    rw [Real.sin_sub, Real.tan_eq_sin_div_cos, eq_div_iff (by positivity)]
    have : Real.sin (Real.arctan tl) = tl * Real.cos (Real.arctan tl) := by
      rw [← Real.tan_mul_cos c0.ne', Real.tan_arctan]
    rw [this]
    field_simp
  have d1 : |Real.tan r - tl| ≤ 5006 / 1000 / 2 ^ 53 * (T * T) := by
    rw [dt, abs_div, abs_of_pos (show 0 < Real.cos r * Real.cos (Real.arctan tl) by positivity), cT, div_le_iff₀ (by positivity)]
    have k1 : |Real.sin (r - Real.arctan tl)| ≤ 5 / 2 ^ 53 := Real.abs_sin_le_abs.trans rx
    refine k1.trans ?_
    have k2 : (999 / 1000 : ℝ) ≤ T * T * (Real.cos r * (1 / T)) := by
      have : T * T * (Real.cos r * (1 / T)) = T * Real.cos r := by field_simp
      rw [this]
      have := mul_le_mul_of_nonneg_left cr T0.le
      have e : T * (999 / 1000 * (1 / T)) = 999 / 1000 := by field_simp
      linarith
    have := mul_le_mul_of_nonneg_left k2 (show (0 : ℝ) ≤ 5006 / 1000 / 2 ^ 53 by norm_num)
    have e : (5 : ℝ) / 2 ^ 53 ≤ 5006 / 1000 / 2 ^ 53 * (999 / 1000) := by norm_num
    linarith
  have d2 : |Real.tan r - tl| ≤ 506 * (T * (1 / 2 ^ 53)) := by
    refine d1.trans ?_
    have := mul_le_mul_of_nonneg_left T2 (show 0 ≤ 5006 / 1000 / 2 ^ 53 * T by positivity)
    have e : (5006 / 1000 / 2 ^ 53 * T * 101 : ℝ) ≤ 506 * (T * (1 / 2 ^ 53)) := by
      rw [show (5006 / 1000 / 2 ^ 53 * T * 101 : ℝ) = 505606 / 1000 * (T * (1 / 2 ^ 53)) by ring]
      exact mul_le_mul_of_nonneg_right (by norm_num) (by positivity)
    linarith
  have tr : |Real.tan r| ≤ 101 / 100 * T := by
    have k := abs_near d2
    have e : 506 * (T * (1 / 2 ^ 53)) ≤ 1 / 100 * T := by
      have : (506 * (1 / 2 ^ 53) : ℝ) ≤ 1 / 100 := by norm_num
      have := mul_le_mul_of_nonneg_right this T0.le
      linarith
    linarith
  have le := lib_err (ht r)
  have fin' : |tn r - tl| ≤ 510 * (T * (1 / 2 ^ 53)) := by
    have k := near_trans le d2
    refine k.trans ?_
    have k2 : 2 * ((1 : ℝ) / 2 ^ 1075) ≤ 1 / 2 ^ 53 := by
      rw [show (2 : ℝ) ^ 1075 = 2 ^ 1022 * 2 ^ 53 by rw [← pow_add], mul_one_div, div_le_div_iff₀ (by positivity) (by positivity)]
      rw [one_mul]
      refine mul_le_mul_of_nonneg_right ?_ (by positivity)
      calc (2 : ℝ) = 2 ^ 1 := by norm_num
        _ ≤ _ := pow_le_pow_right₀ (by norm_num) (by norm_num)
    have k3 := mul_le_mul_of_nonneg_left tr (show (0 : ℝ) ≤ 2 * (1 / 2 ^ 53) by positivity)
    have k4 : (1 : ℝ) / 2 ^ 53 ≤ T * (1 / 2 ^ 53) := by
      have := mul_le_mul_of_nonneg_right T1 (show (0 : ℝ) ≤ 1 / 2 ^ 53 by positivity)
      linarith
    generalize (1 : ℝ) / 2 ^ 1075 = E at *
    linarith
  refine ⟨?_, T2.trans (by norm_num), tn r, tl, by rw [e1]; rfl, by rw [atan_fin, tan_fin c0.ne', Real.tan_arctan], fin', by rwa [one_mul]⟩
  have : (1 : ℝ) / 2 ^ 7 ≤ 1 := by norm_num
  linarith

/-- `cosLambda` as computed from the tangent -/
theorem cosLambda_ap (h : NearestF 53 1074 fl) {tl T : ℝ} (hT : T * T = 1 + tl * tl) (T0 : 0 < T) {t t' : Dbl} (ht : Ap 7 T t t' 1 510)
    (ht' : t' = fin tl) :
    Ap 7 (1 / T) (divD fl 1 (sqrtD fl (addD fl 1 (mulD fl t t)))) (1 / Dbl.sqrt (1 + t' * t')) 1 1029 ∧
      1 / Dbl.sqrt (1 + t' * t') = fin (1 / T) := by
  have a1 := (Ap.mul h ht ht (by norm_num) (by norm_num) (by norm_num) (by norm_num)).mono (B' := 1) (e' := 1022) (by norm_num) (by norm_num)
  have a0 : Ap 14 (T * T) 1 1 1 0 := by
    rw [one_eq]
    exact Ap.given a1.lo a1.hi (by rw [abs_one]; nlinarith)
  have v : 1 + t' * t' = fin (T * T) := by
    rw [ht', one_eq, fin_mul, fin_add, hT]
  have a2 := (Ap.addB h a0 a1 (D := 1) (by
    intro x e
    rw [v] at e
    injection e with e
    rw [← e, one_mul, abs_of_pos (by positivity)]) (by norm_num) (by norm_num) (by norm_num)).mono (B' := 1) (e' := 1024) le_rfl (by norm_num)
  have a3 := (Ap.sqrt h a2 (k := 7) (by norm_num) (by norm_num) v ht.lo ht.hi).mono (B' := 1) (e' := 1026) le_rfl (by norm_num)
  have v2 : Dbl.sqrt (1 + t' * t') = fin T := by rw [v, sqrt_fin (by positivity), Real.sqrt_mul_self T0.le]
  refine ⟨(Ap.divr h one_ap a3 v2 (le_abs_self T) (by norm_num) (by norm_num) (by norm_num) (by norm_num)).mono le_rfl (by norm_num), ?_⟩
  rw [v2, one_eq, fin_div _ T0.ne']

/-- the cross product of the axes `J` and `K` of the perigee frame -/
theorem axisI (h : NearestF 53 1074 fl) (c s : ℝ) : crossV fl ⟨fin s, -fin c, 0⟩ ⟨0, 0, 1⟩ =
    ⟨subD fl (mulD fl (-fin c) 1) (mulD fl 0 0), subD fl (mulD fl 0 0) (mulD fl (fin s) 1), fin 0⟩ := by
  have z := rnd_zero h
  simp only [crossV, mulD, subD, zero_eq, fin_neg, fin_mul, mul_zero, z, fin_sub, sub_zero]

theorem axisI_ap (h : NearestF 53 1074 fl) {c s C Z : ℝ} (hc : Ap 0 1 (fin c) (fin C) 1 3) (hs : Ap 0 1 (fin s) (fin Z) 1 3) (hl : C ^ 2 + Z ^ 2 = 1) :
    ApV 0 1 (crossV fl ⟨fin s, -fin c, 0⟩ ⟨0, 0, 1⟩) (V3.cross ⟨fin Z, -fin C, 0⟩ ⟨0, 0, 1⟩) 1 10 ∧
      V3.cross ⟨fin Z, -fin C, 0⟩ ⟨0, 0, 1⟩ = ⟨fin (-C), fin (-Z), fin 0⟩ := by
  have j : ApV 0 1 ⟨fin s, -fin c, 0⟩ ⟨fin Z, -fin C, 0⟩ 1 3 := by
    refine ⟨hs, hc.neg, (zero_ap 0 (by norm_num) (by norm_num)).mono (by norm_num) (by norm_num), ?_⟩
    intro x y z e
    simp only [fin_neg, zero_eq, V3.mk.injEq, fin.injEq] at e
    obtain ⟨rfl, rfl, rfl⟩ := e
    nlinarith
  have k : ApV 0 1 ⟨0, 0, 1⟩ ⟨0, 0, 1⟩ 1 0 := by
    refine ⟨(zero_ap 0 (by norm_num) (by norm_num)).mono (by norm_num) (by norm_num), (zero_ap 0 (by norm_num) (by norm_num)).mono (by norm_num) (by norm_num),
      one_ap, ?_⟩
    intro x y z e
    simp only [zero_eq, one_eq, V3.mk.injEq, fin.injEq] at e
    obtain ⟨rfl, rfl, rfl⟩ := e
    norm_num
  refine ⟨(ApV.cross h j k (by norm_num) (by norm_num) (by norm_num) (by norm_num) (by norm_num)).mono (by norm_num) (by norm_num) (by norm_num), ?_⟩
  simp [V3.cross, fin_neg, zero_eq, one_eq, fin_mul, fin_sub]

/-- the scalar products and the entries of the matrix in `curvilinearToPerigeeJacobian` -/
theorem perigee_core (h : NearestF 53 1074 fl) {c s C Z D T W F bz : ℝ} {t t' Sl Sl' K K' om om' : Dbl} {H H' : V3}
    (hc : Ap 0 1 (fin c) (fin C) 1 3) (hs : Ap 0 1 (fin s) (fin Z) 1 3) (hcs : C ^ 2 + Z ^ 2 = 1) (ht : Ap 7 T t t' 1 510) 
    (hK : Ap 7 (1 / T) K K' 1 1029) (hK' : K' = fin (1 / T)) (hS : Ap 0 1 Sl Sl' 1 8) (hS' : Sl' = fin D) (hD : D ^ 2 + (1 / T) ^ 2 = 1) (T0 : 0 < T) (T1 : 1 ≤ T)
    (hH : ApV 0 1 H H' 1 (71 / 10)) (hom : Ap 100 W om om' 1 0) (hbz : Ap 100 F (fin bz) (fin bz) 1 0)
    {I I' TV TV' UV UV' VV VV' : V3}
    (eI : crossV fl ⟨fin s, -fin c, 0⟩ ⟨0, 0, 1⟩ = I) (eI' : V3.cross ⟨fin Z, -fin C, 0⟩ ⟨0, 0, 1⟩ = I')
    (eT : (⟨mulD fl (fin c) K, mulD fl (fin s) K, Sl⟩ : V3) = TV) (eT' : (⟨fin C * K', fin Z * K', Sl'⟩ : V3) = TV')
    (eU : (⟨-fin s, fin c, 0⟩ : V3) = UV) (eU' : (⟨-fin Z, fin C, 0⟩ : V3) = UV')
    (eV : (⟨mulD fl (-fin c) Sl, mulD fl (-fin s) Sl, K⟩ : V3) = VV) (eV' : (⟨-fin C * Sl', -fin Z * Sl', K'⟩ : V3) = VV')
    {ui ui' anv anv' ti ti' vi vi' anu anu' vk vk' Q Q' qb qb' : Dbl}
    (e1 : dotV fl UV I = ui) (e1' : UV'.dot I' = ui') (e2 : dotV fl (crossV fl H TV) VV = anv) (e2' : (H'.cross TV').dot VV' = anv')
    (e3 : dotV fl TV I = ti) (e3' : TV'.dot I' = ti') (e4 : dotV fl VV I = vi) (e4' : VV'.dot I' = vi')
    (e5 : dotV fl (crossV fl H TV) UV = anu) (e5' : (H'.cross TV').dot UV' = anu') (e6 : dotV fl VV ⟨0, 0, 1⟩ = vk) (e6' : VV'.dot ⟨0, 0, 1⟩ = vk')
    (e7 : mulD fl K om = Q) (e7' : K' * om' = Q') (e8 : mulD fl (-1) Q = qb) (e8' : -1 * Q' = qb') :
    Ap 116 (F * kBr * (1 / (1 / T))) (divD fl (mulD fl (-fin bz) (convD fl)) K) (-fin bz * convertBr2P_cm / K') 1 (2 ^ 15 - 40) ∧
    Ap 121 (1 / T * W * T * (1 / (1 / T))) (divD fl (mulD fl (-qb) t) K) (-qb' * t' / K') 1 (2 ^ 15 - 40) ∧
    Ap 235 (1 / T * W * (1 / T * W) * T * (1 / (1 / T)) * (1 / (1 / T))) (divD fl (divD fl (mulD fl (mulD fl (mulD fl (mulD fl qb Q) t) ui) anv) K) ti)
      (qb' * Q' * t' * ui' * anv' / K' / ti') 1 (2 ^ 15 - 40) ∧
    Ap 235 (1 / T * W * (1 / T * W) * T * (1 / (1 / T)) * (1 / (1 / T))) (divD fl (divD fl (mulD fl (mulD fl (mulD fl (mulD fl qb Q) t) vi) anv) K) ti)
      (qb' * Q' * t' * vi' * anv' / K' / ti') 1 (2 ^ 15 - 40) ∧
    Ap 114 (1 / T * W * (1 / (1 / T))) (divD fl (mulD fl (mulD fl Q ui) anv) ti) (Q' * ui' * anv' / ti') 1 (2 ^ 15 - 40) ∧
    Ap 114 (1 / T * W * (1 / (1 / T))) (divD fl (mulD fl (mulD fl Q vi) anv) ti) (Q' * vi' * anv' / ti') 1 (2 ^ 15 - 40) ∧
    Ap 121 (1 / T * W * (1 / (1 / T)) * (1 / (1 / T))) (divD fl (divD fl (mulD fl (mulD fl (-Q) ui) anu) K) ti) (-Q' * ui' * anu' / K' / ti') 1 (2 ^ 15 - 40) ∧
    Ap 121 (1 / T * W * (1 / (1 / T)) * (1 / (1 / T))) (divD fl (divD fl (mulD fl (mulD fl (-Q) vi) anu) K) ti) (-Q' * vi' * anu' / K' / ti') 1 (2 ^ 15 - 40) ∧
    Ap 14 (1 / T * (1 / (1 / T))) (divD fl vk ti) (vk' / ti') 1 (2 ^ 15 - 40) ∧
    Ap 7 (1 / (1 / T)) (divD fl (-1) ti) (-1 / ti') 1 (2 ^ 15 - 40) := by
  have iT0 : 0 < 1 / T := by positivity
  have iT1 : 1 / T ≤ 1 := by rw [div_le_one T0]; exact T1
  obtain ⟨hI, vI⟩ := axisI_ap h hc hs hcs
  have cI := axisI h c s
  rw [eI] at hI cI
  rw [eI'] at hI vI
  have K0 : Ap 0 1 K K' 1 1029 := (hK.rescale (l := 0) (T := 1) (c := 1) (by rwa [one_mul]) (by norm_num) (by norm_num)).mono (by norm_num) (by norm_num)
  have tx := (Ap.mulr h hc hK (by norm_num) (by norm_num) (by norm_num) (by norm_num)).mono (B' := 1) (e' := 1035) (by norm_num) (by norm_num)
  have ty := (Ap.mulr h hs hK (by norm_num) (by norm_num) (by norm_num) (by norm_num)).mono (B' := 1) (e' := 1035) (by norm_num) (by norm_num)
  have hT : ApV 0 1 TV TV' 1 1035 := by
    rw [← eT, ← eT']
    refine ⟨(tx.rescale (l := 0) (T := 1) (c := 1) (by rwa [one_mul]) (by norm_num) (by norm_num)).mono (by norm_num) (by norm_num),
      (ty.rescale (l := 0) (T := 1) (c := 1) (by rwa [one_mul]) (by norm_num) (by norm_num)).mono (by norm_num) (by norm_num),
      hS.mono le_rfl (by norm_num), ?_⟩
    intro x y z e
    rw [hK', hS'] at e
    simp only [fin_mul, V3.mk.injEq, fin.injEq] at e
    obtain ⟨rfl, rfl, rfl⟩ := e
    generalize 1 / T = k at *
    have : (C * k) ^ 2 + (Z * k) ^ 2 + D ^ 2 = 1 := by linear_combination k ^ 2 * hcs + hD
    rw [this]
    norm_num
  have hU : ApV 0 1 UV UV' 1 3 := by
    rw [← eU, ← eU']
    refine ⟨hs.neg, hc, (zero_ap 0 (by norm_num) (by norm_num)).mono (by norm_num) (by norm_num), ?_⟩
    intro x y z e
    simp only [fin_neg, zero_eq, V3.mk.injEq, fin.injEq] at e
    obtain ⟨rfl, rfl, rfl⟩ := e
    nlinarith
  have vx := (Ap.mulr h hc.neg hS (by norm_num) (by norm_num) (by norm_num) (by norm_num)).mono (B' := 1) (e' := 13) (by norm_num) (by norm_num)
  have vy := (Ap.mulr h hs.neg hS (by norm_num) (by norm_num) (by norm_num) (by norm_num)).mono (B' := 1) (e' := 13) (by norm_num) (by norm_num)
  have hV : ApV 0 1 VV VV' 1 1029 := by
    rw [← eV, ← eV']
    refine ⟨vx.mono le_rfl (by norm_num), vy.mono le_rfl (by norm_num), K0, ?_⟩
    intro x y z e
    rw [hK', hS'] at e
    simp only [fin_neg, fin_mul, V3.mk.injEq, fin.injEq] at e
    obtain ⟨rfl, rfl, rfl⟩ := e
    generalize 1 / T = k at *
    have : (-C * D) ^ 2 + (-Z * D) ^ 2 + k ^ 2 = 1 := by linear_combination D ^ 2 * hcs + hD
    rw [this]
    norm_num
  have hN := (ApV.cross h hH hT (by norm_num) (by norm_num) (by norm_num) (by norm_num) (by norm_num)).mono (N' := 1) (e' := 2090) (by norm_num) (by norm_num)
    (by norm_num)
  have aui := (ApV.dot h hU hI (by norm_num) (by norm_num) (by norm_num) (by norm_num) (by norm_num) (by norm_num)).mono (B' := 1) (e' := 45)
    (by norm_num) (by norm_num)
  have aanv := (ApV.dot h hN hV (by norm_num) (by norm_num) (by norm_num) (by norm_num) (by norm_num) (by norm_num)).mono (B' := 1) (e' := 9375)
    (by norm_num) (by norm_num)
  have aanu := (ApV.dot h hN hU (by norm_num) (by norm_num) (by norm_num) (by norm_num) (by norm_num) (by norm_num)).mono (B' := 1) (e' := 6300)
    (by norm_num) (by norm_num)
  have avi := (ApV.dot h hV hI (by norm_num) (by norm_num) (by norm_num) (by norm_num) (by norm_num) (by norm_num)).mono (B' := 1) (e' := 3130)
    (by norm_num) (by norm_num)
  rw [e1, e1'] at aui
  rw [e2, e2'] at aanv
  rw [e4, e4'] at avi
  rw [e5, e5'] at aanu
  -- the products with vanishing components
  have z7 : Ap 7 (1 / T) (0 : Dbl) 0 0 0 := zero_ap 7 hK.lo hK.hi
  have mz : ∀ {a a' : Dbl} {B e : ℝ} {l : ℕ} {S : ℝ}, Ap l S a a' B e → mulD fl a (fin 0) = 0 ∧ a' * fin 0 = 0 := by
    intro a a' B e l S q
    obtain ⟨r, x, q1, q2, -, -⟩ := q.val
    rw [q1, q2, mulD, fin_mul, fin_mul, mul_zero, mul_zero, rnd_zero h, zero_eq]
    exact ⟨rfl, rfl⟩
  have hIx := hI.x
  have hIy := hI.y
  rw [vI] at hIx hIy
  have ati : Ap 7 (1 / T) ti ti' 1 2110 ∧ ti' = fin (-(1 / T)) := by
    have p1 := (Ap.mull h tx hIx (by norm_num) (by norm_num) (by norm_num) (by norm_num)).mono (B' := 1) (e' := 1048) (by norm_num) (by norm_num)
    have p2 := (Ap.mull h ty hIy (by norm_num) (by norm_num) (by norm_num) (by norm_num)).mono (B' := 1) (e' := 1048) (by norm_num) (by norm_num)
    have v : fin C * K' * fin (-C) + fin Z * K' * fin (-Z) = fin (-(1 / T)) := by
      rw [hK', fin_mul, fin_mul, fin_mul, fin_mul, fin_add]
      congr 1
      linear_combination (-(1 / T)) * hcs
    have p3 := (Ap.addB h p1 p2 (D := 1) (by
      intro x e
      rw [v] at e
      injection e with e
      rw [← e, abs_neg, one_mul, abs_of_pos iT0]) (by norm_num) (by norm_num) (by norm_num)).mono (B' := 1) (e' := 2098) le_rfl (by norm_num)
    have p4 := (Ap.add h p3 z7 (by norm_num) (by norm_num) (by norm_num)).mono (B' := 1) (e' := 2110) (by norm_num) (by norm_num)
    rw [← e3, ← e3', vI, ← eT, ← eT']
    have hz : I.z = fin 0 := by rw [cI]
    simp only [dotV, V3.dot, hz, (mz hS).1, (mz hS).2]
    refine ⟨p4, ?_⟩
    rw [v, zero_eq, fin_add, add_zero]
  obtain ⟨ati, vti⟩ := ati
  have avk : Ap 7 (1 / T) vk vk' 1 1040 := by
    have p1 := (Ap.mull h hK one_ap (by norm_num) (by norm_num) (by norm_num) (by norm_num)).mono (B' := 1) (e' := 1032) (by norm_num) (by norm_num)
    have z := (Ap.add h z7 z7 (by norm_num) (by norm_num) (by norm_num)).mono (B' := 0) (e' := 1) (by norm_num) (by norm_num)
    have p2 := (Ap.add h z p1 (by norm_num) (by norm_num) (by norm_num)).mono (B' := 1) (e' := 1040) (by norm_num) (by norm_num)
    have w1 := mz vx
    have w2 := mz vy
    rw [← zero_eq] at w1 w2
    rw [← e6, ← e6', ← eV, ← eV']
    simp only [dotV, V3.dot, w1.1, w1.2, w2.1, w2.2]
    exact p2
  have aQ : Ap 107 (1 / T * W) Q Q' 1 1032 := by
    rw [← e7, ← e7']
    exact (Ap.mul h hK hom (by norm_num) (by norm_num) (by norm_num) (by norm_num)).mono (by norm_num) (by norm_num)
  have aqb : Ap 107 (1 / T * W) qb qb' 1 1034 := by
    rw [← e8, ← e8']
    exact (Ap.mulr h one_ap.neg aQ (by norm_num) (by norm_num) (by norm_num) (by norm_num)).mono (by norm_num) (by norm_num)
  have hTi : 1 / T ≤ |(-(1 / T))| := by rw [abs_neg]; exact le_abs_self _
  have hTk : 1 / T ≤ |1 / T| := le_abs_self _
  clear e1 e1' e2 e2' e3 e3' e4 e4' e5 e5' e6 e6' e7 e7' e8 e8' eI eI' eT eT' eU eU' eV eV'
  refine ⟨?_, ?_, ?_, ?_, ?_, ?_, ?_, ?_, ?_, ?_⟩
  · have p := (Ap.mul h hbz.neg (conv_ap h) (by norm_num) (by norm_num) (by norm_num) (by norm_num)).mono (B' := 1) (e' := 5) (by norm_num) (by norm_num)
    exact (Ap.div h p hK hK' hTk (by norm_num) (by norm_num) (by norm_num) (by norm_num)).mono le_rfl (by norm_num)
  · have p := (Ap.mul h aqb.neg ht (by norm_num) (by norm_num) (by norm_num) (by norm_num)).mono (B' := 1) (e' := 1550) (by norm_num) (by norm_num)
    exact (Ap.div h p hK hK' hTk (by norm_num) (by norm_num) (by norm_num) (by norm_num)).mono le_rfl (by norm_num)
  · have p1 := (Ap.mul h aqb aQ (by norm_num) (by norm_num) (by norm_num) (by norm_num)).mono (B' := 1) (e' := 2070) (by norm_num) (by norm_num)
    have p2 := (Ap.mul h p1 ht (by norm_num) (by norm_num) (by norm_num) (by norm_num)).mono (B' := 1) (e' := 2590) (by norm_num) (by norm_num)
    have p3 := (Ap.mull h p2 aui (by norm_num) (by norm_num) (by norm_num) (by norm_num)).mono (B' := 1) (e' := 5740) (by norm_num) (by norm_num)
    have p4 := (Ap.mull h p3 aanv (by norm_num) (by norm_num) (by norm_num) (by norm_num)).mono (B' := 1) (e' := 15130) (by norm_num) (by norm_num)
    have p5 := (Ap.div h p4 hK hK' hTk (by norm_num) (by norm_num) (by norm_num) (by norm_num)).mono (B' := 1) (e' := 16200) le_rfl (by norm_num)
    have p6 := (Ap.div h p5 ati vti hTi (by norm_num) (by norm_num) (by norm_num) (by norm_num)).mono (B' := 1) (e' := 2 ^ 15 - 40) le_rfl (by norm_num)
    exact p6
  · have p1 := (Ap.mul h aqb aQ (by norm_num) (by norm_num) (by norm_num) (by norm_num)).mono (B' := 1) (e' := 2070) (by norm_num) (by norm_num)
    have p2 := (Ap.mul h p1 ht (by norm_num) (by norm_num) (by norm_num) (by norm_num)).mono (B' := 1) (e' := 2590) (by norm_num) (by norm_num)
    have p3 := (Ap.mull h p2 avi (by norm_num) (by norm_num) (by norm_num) (by norm_num)).mono (B' := 1) (e' := 5740) (by norm_num) (by norm_num)
    have p4 := (Ap.mull h p3 aanv (by norm_num) (by norm_num) (by norm_num) (by norm_num)).mono (B' := 1) (e' := 15130) (by norm_num) (by norm_num)
    have p5 := (Ap.div h p4 hK hK' hTk (by norm_num) (by norm_num) (by norm_num) (by norm_num)).mono (B' := 1) (e' := 16200) le_rfl (by norm_num)
    have p6 := (Ap.div h p5 ati vti hTi (by norm_num) (by norm_num) (by norm_num) (by norm_num)).mono (B' := 1) (e' := 2 ^ 15 - 40) le_rfl (by norm_num)
    exact p6
  · have p3 := (Ap.mull h aQ aui (by norm_num) (by norm_num) (by norm_num) (by norm_num)).mono (B' := 1) (e' := 4200) (by norm_num) (by norm_num)
    have p4 := (Ap.mull h p3 aanv (by norm_num) (by norm_num) (by norm_num) (by norm_num)).mono (B' := 1) (e' := 13600) (by norm_num) (by norm_num)
    have p6 := (Ap.div h p4 ati vti hTi (by norm_num) (by norm_num) (by norm_num) (by norm_num)).mono (B' := 1) (e' := 2 ^ 15 - 40) le_rfl (by norm_num)
    exact p6
  · have p3 := (Ap.mull h aQ avi (by norm_num) (by norm_num) (by norm_num) (by norm_num)).mono (B' := 1) (e' := 4200) (by norm_num) (by norm_num)
    have p4 := (Ap.mull h p3 aanv (by norm_num) (by norm_num) (by norm_num) (by norm_num)).mono (B' := 1) (e' := 13600) (by norm_num) (by norm_num)
    have p6 := (Ap.div h p4 ati vti hTi (by norm_num) (by norm_num) (by norm_num) (by norm_num)).mono (B' := 1) (e' := 2 ^ 15 - 40) le_rfl (by norm_num)
    exact p6
  · have p3 := (Ap.mull h aQ.neg aui (by norm_num) (by norm_num) (by norm_num) (by norm_num)).mono (B' := 1) (e' := 4200) (by norm_num) (by norm_num)
    have p4 := (Ap.mull h p3 aanu (by norm_num) (by norm_num) (by norm_num) (by norm_num)).mono (B' := 1) (e' := 10600) (by norm_num) (by norm_num)
    have p5 := (Ap.div h p4 hK hK' hTk (by norm_num) (by norm_num) (by norm_num) (by norm_num)).mono (B' := 1) (e' := 11700) le_rfl (by norm_num)
    have p6 := (Ap.div h p5 ati vti hTi (by norm_num) (by norm_num) (by norm_num) (by norm_num)).mono (B' := 1) (e' := 2 ^ 15 - 40) le_rfl (by norm_num)
    exact p6
  · have p3 := (Ap.mull h aQ.neg avi (by norm_num) (by norm_num) (by norm_num) (by norm_num)).mono (B' := 1) (e' := 4200) (by norm_num) (by norm_num)
    have p4 := (Ap.mull h p3 aanu (by norm_num) (by norm_num) (by norm_num) (by norm_num)).mono (B' := 1) (e' := 10600) (by norm_num) (by norm_num)
    have p5 := (Ap.div h p4 hK hK' hTk (by norm_num) (by norm_num) (by norm_num) (by norm_num)).mono (B' := 1) (e' := 11700) le_rfl (by norm_num)
    have p6 := (Ap.div h p5 ati vti hTi (by norm_num) (by norm_num) (by norm_num) (by norm_num)).mono (B' := 1) (e' := 2 ^ 15 - 40) le_rfl (by norm_num)
    exact p6
  · exact (Ap.div h avk ati vti hTi (by norm_num) (by norm_num) (by norm_num) (by norm_num)).mono le_rfl (by norm_num)
  · exact (Ap.divr h one_ap.neg ati vti hTi (by norm_num) (by norm_num) (by norm_num) (by norm_num)).mono le_rfl (by norm_num)


/-- numbers of type `double` are not closer to π/2 than 2^-54 -/
theorem half_pi_gap {v : ℝ} (hv : RepF 53 1074 v) (v1 : 1 < v) : 1 / 2 ^ 54 ≤ |v - Real.pi / 2| := by
  have big : (2 : ℝ) ^ (53 + 1021) < |v| * 2 ^ 1074 := by
    rw [abs_of_pos (by linarith)]
    exact lt_mul_of_one_lt_left (by positivity) v1
  obtain ⟨m, hm⟩ := repF_multiple hv big
  have vm : v * 2 ^ 52 = m := by
    have e : (2 : ℝ) ^ 1074 = 2 ^ 52 * 2 ^ (1021 + 1) := by rw [← pow_add]
    rw [e, ← mul_assoc] at hm
    exact mul_right_cancel₀ (by positivity) hm
  have p1 := Real.pi_gt_d20
  have p2 := Real.pi_lt_d20
  rcases le_or_gt m 7074237752028440 with k | k
  · have k' : (m : ℝ) ≤ 7074237752028440 := by exact_mod_cast k
    rw [abs_sub_comm]
    refine le_trans ?_ (le_abs_self _)
    norm_num at vm p1 p2 ⊢
    linarith
  · have k' : (7074237752028441 : ℝ) ≤ m := by exact_mod_cast k
    refine le_trans ?_ (le_abs_self _)
    norm_num at vm p1 p2 ⊢
    linarith

/-- `atan` of steep slopes -/
theorem steep_atan (ha : IsAtan atn) (hr : ∀ x, RepF 53 1074 (atn x)) :
    1 / 2 ^ 55 ≤ |Real.cos (atn (2 ^ 80))| ∧ |Real.cos (atn (2 ^ 80))| ≤ 1 / 2 ^ 50 := by
  have p3 := Real.pi_gt_three
  have p4 := Real.pi_lt_four
  have a1 : Real.arctan (2 ^ 80) = Real.pi / 2 - Real.arctan (1 / 2 ^ 80) := by
    rw [one_div, Real.arctan_inv_of_pos (by positivity)]
    ring
  have a2 : Real.arctan (1 / 2 ^ 80) ≤ 1 / 2 ^ 80 := by
    have k := Real.le_tan (Real.arctan_nonneg.2 (show (0 : ℝ) ≤ 1 / 2 ^ 80 by positivity)) (Real.arctan_lt_pi_div_two _)
    rwa [Real.tan_arctan] at k
  have a3 : 0 < Real.arctan (1 / 2 ^ 80) := Real.arctan_pos.2 (by positivity)
  have ab : |Real.arctan (2 ^ 80)| ≤ 2 := by
    rw [abs_le]
    constructor
    · exact le_trans (by norm_num) (Real.arctan_pos.2 (show (0 : ℝ) < 2 ^ 80 by positivity)).le
    · exact (Real.arctan_lt_pi_div_two (2 ^ 80)).le.trans (by linarith)
  have tiny : (1 : ℝ) / 2 ^ 1074 ≤ 1 / 2 ^ 80 := one_div_le_one_div_of_le (by positivity) (pow_le_pow_right₀ (by norm_num) (by norm_num))
  have e := ha (2 ^ 80)
  rw [a1] at e ab
  generalize Real.arctan (1 / 2 ^ 80) = q at *
  have hv := hr (2 ^ 80)
  generalize atn (2 ^ 80) = v at *
  have e' : |v - (Real.pi / 2 - q)| ≤ 2 / 2 ^ 52 + 1 / 2 ^ 80 := e.trans (by
    have := div_le_div_of_nonneg_right ab (show (0 : ℝ) ≤ 2 ^ 52 by positivity)
    linarith)
  obtain ⟨e1, e2⟩ := abs_le.1 e'
  have up : |v - Real.pi / 2| ≤ 1 / 2 ^ 50 := by
    rw [abs_le]
    norm_num at *
    constructor <;> linarith
  have v1 : 1 < v := by
    have := (abs_le.1 up).1
    norm_num at *
    linarith
  have gap := half_pi_gap hv v1
  have cs : Real.cos v = -Real.sin (v - Real.pi / 2) := by
    rw [Real.sin_sub_pi_div_two, neg_neg]
  rw [cs, abs_neg]
  refine ⟨?_, Real.abs_sin_le_abs.trans up⟩
  have k : |v - Real.pi / 2| ≤ Real.pi / 2 := by norm_num at *; linarith
  have := Real.mul_abs_le_abs_sin k
  refine le_trans ?_ this
  have p : 1 / 2 ≤ 2 / Real.pi := by
    rw [div_le_div_iff₀ (by norm_num) Real.pi_pos]
    linarith
  calc (1 : ℝ) / 2 ^ 55 = 1 / 2 * (1 / 2 ^ 54) := by norm_num
    _ ≤ _ := mul_le_mul p gap (by positivity) (by positivity)

/-- rounding of numbers that are not too large -/
theorem rnd_mid (h : NearestF 53 1074 fl) {t : ℝ} (ht : |t| ≤ 2 ^ 500) : rnd fl 1024 (fin t) = fin (fl t) :=
  rnd_double h (ht.trans (pow_le_pow_right₀ (by norm_num) (by norm_num)))

theorem fl_half_abs (h : NearestF 53 1074 fl) {x : ℝ} (hx : 1 / 2 ^ 500 ≤ |x|) : |fl x - x| ≤ |x| / 2 := by
  have big : (2 : ℝ) ^ (53 - 1) ≤ |x| * 2 ^ 1074 := by
    have : (1 : ℝ) / 2 ^ 500 * 2 ^ 1074 ≤ |x| * 2 ^ 1074 := mul_le_mul_of_nonneg_right hx (by positivity)
    refine le_trans ?_ this
    rw [show (2 : ℝ) ^ 1074 = 2 ^ 500 * 2 ^ 574 by rw [← pow_add], ← mul_assoc, one_div, inv_mul_cancel₀ (by positivity), one_mul]
    exact pow_le_pow_right₀ (by norm_num) (by norm_num)
  have k := h.rel (by norm_num) big
  have k2 : |fl x - x| ≤ |x| / 2 ^ 53 := by rwa [le_div_iff₀ (by positivity)]
  exact k2.trans (div_le_div_of_nonneg_left (abs_nonneg _) (by norm_num) (by norm_num))

theorem fl_half (h : NearestF 53 1074 fl) {x : ℝ} (hx : 1 / 2 ^ 500 ≤ x) : x / 2 ≤ fl x ∧ fl x ≤ 2 * x := by
  have x0 : 0 < x := lt_of_lt_of_le (by positivity) hx
  have k := fl_half_abs h (x := x) (by rwa [abs_of_pos x0])
  rw [abs_of_pos x0] at k
  obtain ⟨k4, k5⟩ := abs_le.1 k
  constructor <;> linarith

theorem fl_least (h : NearestF 53 1074 fl) {x c : ℝ} (hc : 1 / 2 ^ 500 ≤ c) (hx : c ≤ |x|) : c / 2 ≤ |fl x| := by
  have k := fl_half_abs h (x := x) (hc.trans hx)
  have := abs_sub_abs_le_abs_sub x (fl x)
  rw [abs_sub_comm] at this
  linarith

/-- the cosine from the tangent is not small if the tangent is not large -/
theorem cosLambda_flat (h : NearestF 53 1074 fl) {t : ℝ} (ht : |t| ≤ 2 ^ 56) :
    ∃ r, divD fl 1 (sqrtD fl (addD fl 1 (mulD fl (fin t) (fin t)))) = fin r ∧ 1 / 2 ^ 62 ≤ r ∧ r ≤ 4 := by
  have t2 : t * t ≤ 2 ^ 112 := by
    have := mul_self_le_mul_self (abs_nonneg t) ht
    rw [abs_mul_abs_self] at this
    refine this.trans (by norm_num)
  have t0 : 0 ≤ t * t := mul_self_nonneg t
  have w : ∀ {x : ℝ}, |x| ≤ 2 ^ 120 → |x| ≤ 2 ^ 500 := fun k => k.trans (pow_le_pow_right₀ (by norm_num) (by norm_num))
  have lo : (1 : ℝ) / 2 ^ 500 ≤ 1 / 2 ^ 100 := one_div_le_one_div_of_le (by positivity) (pow_le_pow_right₀ (by norm_num) (by norm_num))
  have a1 : mulD fl (fin t) (fin t) = fin (fl (t * t)) := by
    rw [mulD, fin_mul]
    exact rnd_mid h (w (by rw [abs_of_nonneg t0]; exact t2.trans (by norm_num)))
  have b0 : 0 ≤ fl (t * t) := fl_nonneg h t0
  have b1 : fl (t * t) ≤ 2 ^ 113 := by
    have := h.double (t * t)
    rw [abs_of_nonneg t0, abs_of_nonneg b0] at this
    norm_num at *
    linarith
  generalize fl (t * t) = p at *
  have a2 : addD fl 1 (fin p) = fin (fl (1 + p)) := by
    rw [addD, one_eq, fin_add]
    exact rnd_mid h (w (by rw [abs_of_nonneg (by linarith)]; norm_num at *; linarith))
  obtain ⟨c1, c2⟩ := fl_half h (x := 1 + p) (lo.trans (by norm_num; linarith))
  have d1 : 1 / 4 ≤ fl (1 + p) := by linarith
  have d2 : fl (1 + p) ≤ 2 ^ 116 := by norm_num at *; linarith
  generalize fl (1 + p) = q at *
  have s1 : 1 / 2 ≤ √q := Real.le_sqrt_of_sq_le (by norm_num; linarith)
  have s2 : √q ≤ 2 ^ 58 := Real.sqrt_le_iff.2 ⟨by positivity, by norm_num at *; linarith⟩
  have a3 : sqrtD fl (fin q) = fin (fl √q) := by
    rw [sqrtD, sqrt_fin (by linarith)]
    exact rnd_mid h (w (by rw [abs_of_nonneg (by linarith)]; norm_num at *; linarith))
  obtain ⟨f1, f2⟩ := fl_half h (x := √q) (lo.trans (by norm_num; linarith))
  have g1 : 1 / 4 ≤ fl √q := by linarith
  have g2 : fl √q ≤ 2 ^ 60 := by norm_num at *; linarith
  generalize fl √q = s at *
  have s0 : 0 < s := by linarith
  have i1 : 1 / 2 ^ 60 ≤ 1 / s := one_div_le_one_div_of_le s0 g2
  have i2 : 1 / s ≤ 4 := by
    rw [div_le_iff₀ s0]
    linarith
  have a4 : divD fl 1 (fin s) = fin (fl (1 / s)) := by
    rw [divD, one_eq, fin_div _ s0.ne']
    exact rnd_mid h (w (by rw [abs_of_pos (by positivity)]; norm_num at *; linarith))
  obtain ⟨j1, -⟩ := fl_half h (x := 1 / s) (lo.trans (le_trans (by norm_num) i1))
  refine ⟨fl (1 / s), by rw [a1, a2, a3, a4], ?_, ?_⟩
  · norm_num at *
    linarith
  · have := h.near (1 / s) 4 ⟨4, 1074, by norm_num, by norm_num⟩
    rw [abs_of_nonneg (show 0 ≤ 4 - 1 / s by linarith)] at this
    have := (abs_le.1 this).2
    linarith

end Rnd

end Verif
