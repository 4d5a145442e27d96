import Verif.Model.Lcio
import Verif.Spec.Lcio
import Verif.Lemmas.Containers
import Mathlib.LinearAlgebra.Matrix.Symmetric
import Mathlib.Tactic.FinCases

/-!
# LCIO persistency: C57, C58, C59
-/

open Verif.Spec

noncomputable section

namespace Verif

/-- a track state with finite content -/
def TrackState.re (loc : ℤ) (d0 phi om z0 tl : ℝ) (c : List ℝ) (x y z : ℝ) : TrackState :=
  ⟨loc, .fin d0, .fin phi, .fin om, .fin z0, .fin tl, c.map Dbl.fin, V3.re x y z⟩

theorem unit_mm_eq : unit_mm = .fin (1 / 10) := rfl

theorem list_ge15 {α : Type} {l : List α} (h : 15 ≤ l.length) :
    ∃ a0 a1 a2 a3 a4 a5 a6 a7 a8 a9 a10 a11 a12 a13 a14 r,
      l = a0 :: a1 :: a2 :: a3 :: a4 :: a5 :: a6 :: a7 :: a8 :: a9 :: a10 :: a11 :: a12 :: a13 :: a14 :: r := by
  match l, h with
  | a0 :: a1 :: a2 :: a3 :: a4 :: a5 :: a6 :: a7 :: a8 :: a9 :: a10 :: a11 :: a12 :: a13 :: a14 :: r, _ =>
    exact ⟨a0, a1, a2, a3, a4, a5, a6, a7, a8, a9, a10, a11, a12, a13, a14, r, rfl⟩

/-- what `readLCIO` makes of a track state with 15 covariance values -/
theorem readLCIO_ok (loc : ℤ) (d0 phi om z0 tl : Dbl) (ref : V3)
    (a0 a1 a2 a3 a4 a5 a6 a7 a8 a9 a10 a11 a12 a13 a14 : Dbl) (r : List Dbl) :
    readLCIO ⟨loc, d0, phi, om, z0, tl,
      a0 :: a1 :: a2 :: a3 :: a4 :: a5 :: a6 :: a7 :: a8 :: a9 :: a10 :: a11 :: a12 :: a13 :: a14 :: r, ref⟩ =
    .ok ⟨![![a5 / (unit_mm * unit_mm), a12 / unit_mm, a4 / unit_mm, a3, a8],
           ![a12 / unit_mm, a14, a11, a10 * unit_mm, a13 * unit_mm],
           ![a4 / unit_mm, a11, a2, a1 * unit_mm, a7 * unit_mm],
           ![a3, a10 * unit_mm, a1 * unit_mm, a0 * unit_mm * unit_mm, a6 * unit_mm * unit_mm],
           ![a8, a13 * unit_mm, a7 * unit_mm, a6 * unit_mm * unit_mm, a9 * unit_mm * unit_mm]],
         ![om / unit_mm, tl, phi, d0 * unit_mm, z0 * unit_mm],
         ⟨ref.x * unit_mm, ref.y * unit_mm, ref.z * unit_mm⟩⟩ := by
  simp only [readLCIO, vecAt, List.getElem?_cons_zero, List.getElem?_cons_succ, Out.ok_bind, Out.pure_eq,
    TP.setAll, TP.setHp, TP.setRef, TP.setCov, Out.ok.injEq, TP.mk.injEq, and_true]
  constructor
  · funext i j
    fin_cases i <;> fin_cases j <;> rfl
  · funext i
    fin_cases i <;> rfl

/-- C58 (error branch): with fewer than 15 covariance values reading throws. -/
theorem C58_short (ts : TrackState) (h : ts.cov.length < 15) : readLCIO ts = .throw "std::out_of_range" := by
  have h14 : ts.cov[14]? = none := by simp; omega
  have h5 : vecAt ts.cov 14 = .throw "std::out_of_range" := by simp [vecAt, h14]
  unfold readLCIO
  cases h' : ts.cov[5]? with
  | none => simp [vecAt, h']
  | some a =>
    have : vecAt ts.cov 5 = .ok a := by simp [vecAt, h']
    rw [this, h5]
    rfl

/-! ## C58: read, then write -/

/-- C58: reading a track state with finite content whose numbers are single precision numbers (fixed points of the
narrowing) and writing it again reproduces all parameters, the reference point and the 15 covariance values. Only the
location is lost. -/
theorem C58_read_write (fl : ℝ → ℝ) (loc : ℤ) (d0 phi om z0 tl x y z : ℝ) (c : List ℝ) (hc : 15 ≤ c.length)
    (hp : ∀ a ∈ [d0, phi, om, z0, tl, x, y, z], fl a = a) (hcov : ∀ a ∈ c, fl a = a) :
    ∃ tp, readLCIO (TrackState.re loc d0 phi om z0 tl c x y z) = .ok tp ∧
      createLCIO fl tp = TrackState.re 0 d0 phi om z0 tl (c.take 15) x y z := by
  obtain ⟨a0, a1, a2, a3, a4, a5, a6, a7, a8, a9, a10, a11, a12, a13, a14, r, rfl⟩ := list_ge15 hc
  simp only [List.mem_cons, List.not_mem_nil, or_false, forall_eq_or_imp, forall_eq] at hp hcov
  obtain ⟨p0, p1, p2, p3, p4, p5, p6, p7⟩ := hp
  obtain ⟨h0, h1, h2, h3, h4, h5, h6, h7, h8, h9, h10, h11, h12, h13, h14, -⟩ := hcov
  have e1 : ∀ a : ℝ, a * (1 / 10) / (1 / 10) = a := fun a => by ring
  have e2 : ∀ a : ℝ, a / (1 / 10) * (1 / 10) = a := fun a => by ring
  have e3 : ∀ a : ℝ, a / (1 / 10 * (1 / 10)) * (1 / 10 * (1 / 10)) = a := fun a => by ring
  have e4 : ∀ a : ℝ, a * (1 / 10) * (1 / 10) / (1 / 10 * (1 / 10)) = a := fun a => by ring
  have n1 : (1 / 10 : ℝ) ≠ 0 := by norm_num
  have n2 : (1 / 10 * (1 / 10) : ℝ) ≠ 0 := by norm_num
  refine ⟨_, readLCIO_ok loc _ _ _ _ _ _ _ _ _ _ _ _ _ _ _ _ _ _ _ _ _ _, ?_⟩
  simp only [createLCIO, TrackState.re, calculateD0, calculatePhi0, calculateOmega, calculateZ0, calculateTanLambda,
    D0, PHI0, OMEGA, Z0, TANL, unit_mm_eq, V3.re, Matrix.cons_val, Dbl.fin_mul, Dbl.fin_div _ n1, Dbl.fin_div _ n2,
    narrow, List.take, List.map, e1, e2, e3, e4, p0, p1, p2, p3, p4, p5, p6, p7,
    h0, h1, h2, h3, h4, h5, h6, h7, h8, h9, h10, h11, h12, h13, h14]

example : ∃ tp, readLCIO (TrackState.re 1 2 3 4 5 6 [1,2,3,4,5,6,7,8,9,10,11,12,13,14,15] 7 8 9) = .ok tp ∧
    createLCIO id tp = TrackState.re 0 2 3 4 5 6 [1,2,3,4,5,6,7,8,9,10,11,12,13,14,15] 7 8 9 :=
  C58_read_write id 1 2 3 4 5 6 7 8 9 _ (by simp) (by simp) (by simp)

/-! ## C57: write, then read -/

/-- C57: the general form. Writing finite track parameters with symmetric covariance and reading them again returns
finite track parameters; if the narrowing `fl` has relative error `u` and absolute error `η` (underflow), each number is
reproduced with relative error `u` and absolute error `100 η`. -/
theorem C57_write_read (fl : ℝ → ℝ) (u η : ℝ) (hη : 0 ≤ η) (hfl : ∀ x, |fl x - x| ≤ u * |x| + η)
    (p : Fin 5 → ℝ) (c : Fin 5 → Fin 5 → ℝ) (hc : ∀ i j, c i j = c j i) (x y z : ℝ) :
    ∃ (p' : Fin 5 → ℝ) (c' : Fin 5 → Fin 5 → ℝ) (x' y' z' : ℝ),
      readLCIO (createLCIO fl ⟨M5.re c, V5.re p, V3.re x y z⟩) = .ok ⟨M5.re c', V5.re p', V3.re x' y' z'⟩ ∧
      (∀ i, |p' i - p i| ≤ u * |p i| + 100 * η) ∧ (∀ i j, |c' i j - c i j| ≤ u * |c i j| + 100 * η) ∧
      |x' - x| ≤ u * |x| + 100 * η ∧ |y' - y| ≤ u * |y| + 100 * η ∧ |z' - z| ≤ u * |z| + 100 * η := by
  have key : ∀ k : ℝ, 1 / 100 ≤ k → ∀ a : ℝ, |fl (a * k) / k - a| ≤ u * |a| + 100 * η := by
    intro k hk a
    have hk0 : 0 < k := by linarith
    have h := hfl (a * k)
    have e : fl (a * k) / k - a = (fl (a * k) - a * k) / k := by field_simp
    rw [e, abs_div, abs_of_pos hk0, div_le_iff₀ hk0]
    rw [abs_mul, abs_of_pos hk0] at h
    nlinarith [mul_nonneg hη (sub_nonneg.mpr hk)]
  have k1 : ∀ a : ℝ, |fl a - a| ≤ u * |a| + 100 * η := fun a => by
    have := key 1 (by norm_num) a; simpa using this
  have kmul : ∀ a : ℝ, |fl (a * (1 / 10)) / (1 / 10) - a| ≤ u * |a| + 100 * η := key (1 / 10) (by norm_num)
  have kdiv : ∀ a : ℝ, |fl (a / (1 / 10)) * (1 / 10) - a| ≤ u * |a| + 100 * η := fun a => by
    have := key 10 (by norm_num) a
    rwa [show a * 10 = a / (1 / 10) by ring, show ∀ b : ℝ, b / 10 = b * (1 / 10) from fun b => by ring] at this
  have kmul2 : ∀ a : ℝ, |fl (a * (1 / 10 * (1 / 10))) / (1 / 10 * (1 / 10)) - a| ≤ u * |a| + 100 * η :=
    key (1 / 10 * (1 / 10)) (by norm_num)
  have kdiv2 : ∀ a : ℝ, |fl (a / (1 / 10 * (1 / 10))) * (1 / 10) * (1 / 10) - a| ≤ u * |a| + 100 * η := fun a => by
    have := key 100 (by norm_num) a
    rwa [show a * 100 = a / (1 / 10 * (1 / 10)) by ring,
      show ∀ b : ℝ, b / 100 = b * (1 / 10) * (1 / 10) from fun b => by ring] at this
  have sw : ∀ {a b v : ℝ}, a = b → |v - a| ≤ u * |a| + 100 * η → |v - b| ≤ u * |b| + 100 * η := by
    rintro a b v rfl h; exact h
  have n1 : (1 / 10 : ℝ) ≠ 0 := by norm_num
  have n2 : (1 / 10 * (1 / 10) : ℝ) ≠ 0 := by norm_num
  refine ⟨![fl (p 0 * (1 / 10)) / (1 / 10), fl (p 1), fl (p 2), fl (p 3 / (1 / 10)) * (1 / 10),
      fl (p 4 / (1 / 10)) * (1 / 10)],
    ![![fl (c 0 0 * (1 / 10 * (1 / 10))) / (1 / 10 * (1 / 10)), fl (c 0 1 * (1 / 10)) / (1 / 10),
        fl (c 0 2 * (1 / 10)) / (1 / 10), fl (c 3 0), fl (c 4 0)],
      ![fl (c 0 1 * (1 / 10)) / (1 / 10), fl (c 1 1), fl (c 1 2), fl (c 1 3 / (1 / 10)) * (1 / 10),
        fl (c 1 4 / (1 / 10)) * (1 / 10)],
      ![fl (c 0 2 * (1 / 10)) / (1 / 10), fl (c 1 2), fl (c 2 2), fl (c 3 2 / (1 / 10)) * (1 / 10),
        fl (c 2 4 / (1 / 10)) * (1 / 10)],
      ![fl (c 3 0), fl (c 1 3 / (1 / 10)) * (1 / 10), fl (c 3 2 / (1 / 10)) * (1 / 10),
        fl (c 3 3 / (1 / 10 * (1 / 10))) * (1 / 10) * (1 / 10), fl (c 3 4 / (1 / 10 * (1 / 10))) * (1 / 10) * (1 / 10)],
      ![fl (c 4 0), fl (c 1 4 / (1 / 10)) * (1 / 10), fl (c 2 4 / (1 / 10)) * (1 / 10),
        fl (c 3 4 / (1 / 10 * (1 / 10))) * (1 / 10) * (1 / 10), fl (c 4 4 / (1 / 10 * (1 / 10))) * (1 / 10) * (1 / 10)]],
    fl (x / (1 / 10)) * (1 / 10), fl (y / (1 / 10)) * (1 / 10), fl (z / (1 / 10)) * (1 / 10), ?_, ?_, ?_,
    kdiv x, kdiv y, kdiv z⟩
  · simp only [createLCIO, readLCIO_ok, Out.ok.injEq, TP.mk.injEq]
    refine ⟨?_, ?_, ?_⟩
    · funext i j
      fin_cases i <;> fin_cases j <;>
        simp [M5.re, unit_mm_eq, narrow, Dbl.fin_mul, Dbl.fin_div _ n1, Dbl.fin_div _ n2, -one_div]
    · funext i
      fin_cases i <;>
        simp [V5.re, unit_mm_eq, narrow, Dbl.fin_mul, Dbl.fin_div _ n1, calculateD0, calculatePhi0, calculateOmega,
          calculateZ0, calculateTanLambda, D0, PHI0, OMEGA, Z0, TANL, -one_div]
    · simp [V3.re, unit_mm_eq, narrow, Dbl.fin_mul, Dbl.fin_div _ n1, -one_div]
  · intro i
    fin_cases i
    · exact kmul _
    · exact k1 _
    · exact k1 _
    · exact kdiv _
    · exact kdiv _
  · intro i j
    fin_cases i <;> fin_cases j
    · exact kmul2 _
    · exact kmul _
    · exact kmul _
    · exact sw (hc _ _) (k1 _)
    · exact sw (hc _ _) (k1 _)
    · exact sw (hc _ _) (kmul _)
    · exact k1 _
    · exact k1 _
    · exact kdiv _
    · exact kdiv _
    · exact sw (hc _ _) (kmul _)
    · exact sw (hc _ _) (k1 _)
    · exact k1 _
    · exact sw (hc _ _) (kdiv _)
    · exact kdiv _
    · exact k1 _
    · exact sw (hc _ _) (kdiv _)
    · exact kdiv _
    · exact kdiv2 _
    · exact kdiv2 _
    · exact k1 _
    · exact sw (hc _ _) (kdiv _)
    · exact sw (hc _ _) (kdiv _)
    · exact sw (hc _ _) (kdiv2 _)
    · exact kdiv2 _

/-- C57: without rounding the track is reproduced exactly. -/
theorem C57_exact (p : Fin 5 → ℝ) (c : Fin 5 → Fin 5 → ℝ) (hc : ∀ i j, c i j = c j i) (x y z : ℝ) :
    readLCIO (createLCIO id ⟨M5.re c, V5.re p, V3.re x y z⟩) = .ok ⟨M5.re c, V5.re p, V3.re x y z⟩ := by
  obtain ⟨p', c', x', y', z', h, hp, hC, hx, hy, hz⟩ :=
    C57_write_read id 0 0 le_rfl (by simp) p c hc x y z
  have z0 : ∀ a b : ℝ, |a - b| ≤ 0 * |b| + 100 * 0 → a = b := fun a b h => by
    rw [zero_mul, mul_zero, add_zero] at h
    exact sub_eq_zero.mp (abs_nonpos_iff.mp h)
  rw [h, z0 _ _ hx, z0 _ _ hy, z0 _ _ hz, funext fun i => z0 _ _ (hp i),
    funext fun i => funext fun j => z0 _ _ (hC i j)]

/-- C57: whatever the covariance and the narrowing, what is read back is symmetric. -/
theorem C57_symmetric (fl : ℝ → ℝ) (tp : TP) :
    ∃ tp', readLCIO (createLCIO fl tp) = .ok tp' ∧ ∀ i j, tp'.cov i j = tp'.cov j i := by
  refine ⟨_, readLCIO_ok _ _ _ _ _ _ _ _ _ _ _ _ _ _ _ _ _ _ _ _ _ _ _, ?_⟩
  intro i j
  fin_cases i <;> fin_cases j <;> rfl

/-- C57 needs the symmetry: the (2,3) element of a covariance that is not symmetric is not written. -/
example : ∃ (c : Fin 5 → Fin 5 → ℝ) (tp' : TP),
    readLCIO (createLCIO id ⟨M5.re c, V5.re 0, V3.re 0 0 0⟩) = .ok tp' ∧ tp'.cov ≠ M5.re c := by
  obtain ⟨tp', h, hs⟩ := C57_symmetric id ⟨M5.re (fun i j => if i = 2 ∧ j = 3 then 1 else 0), V5.re 0, V3.re 0 0 0⟩
  refine ⟨_, tp', h, fun e => ?_⟩
  have := hs 2 3
  rw [e] at this
  simp [M5.re] at this

/-! ## C59: units of the covariance -/

theorem lcioMatrix_eq (c : ℕ → ℝ) : lcioMatrix c =
    !![c 0, c 1, c 3, c 6, c 10; c 1, c 2, c 4, c 7, c 11; c 3, c 4, c 5, c 8, c 12; c 6, c 7, c 8, c 9, c 13;
       c 10, c 11, c 12, c 13, c 14] := by
  ext i j
  fin_cases i <;> fin_cases j <;> rfl

/-- C59: one and the same linear map (reordering and mm to cm) takes the LCIO parameters to the parameters and, by
`D C Dᵀ`, the symmetric LCIO covariance matrix to the covariance; the reference point is converted to cm. -/
theorem C59_covariance (loc : ℤ) (d0 phi om z0 tl x y z : ℝ) (c : List ℝ) (hc : 15 ≤ c.length) :
    readLCIO (TrackState.re loc d0 phi om z0 tl c x y z) =
      .ok ⟨M5.re (lcioToAida * lcioMatrix (fun k => c.getD k 0) * lcioToAida.transpose),
           V5.re (lcioToAida.mulVec ![d0, phi, om, z0, tl]), V3.re (x / 10) (y / 10) (z / 10)⟩ := by
  obtain ⟨a0, a1, a2, a3, a4, a5, a6, a7, a8, a9, a10, a11, a12, a13, a14, r, rfl⟩ := list_ge15 hc
  have n1 : (1 / 10 : ℝ) ≠ 0 := by norm_num
  have n2 : (1 / 10 * (1 / 10) : ℝ) ≠ 0 := by norm_num
  simp only [TrackState.re, List.map_cons, readLCIO_ok, Out.ok.injEq, TP.mk.injEq]
  refine ⟨?_, ?_, ?_⟩
  · funext i j
    fin_cases i <;> fin_cases j <;>
      simp [M5.re, unit_mm_eq, Dbl.fin_mul, Dbl.fin_div _ n1, Dbl.fin_div _ n2, lcioToAida, lcioMatrix_eq,
        Matrix.mul_apply, Fin.sum_univ_five, -one_div] <;> (try ring)
  · funext i
    fin_cases i <;>
      simp [V5.re, unit_mm_eq, Dbl.fin_mul, Dbl.fin_div _ n1, lcioToAida, Matrix.mulVec, dotProduct,
        Fin.sum_univ_five, -one_div] <;> (try ring)
  · simp [V3.re, unit_mm_eq, Dbl.fin_mul, -one_div]
    refine ⟨?_, ?_, ?_⟩ <;> ring

example : ∃ tp, readLCIO (TrackState.re 1 2 3 4 5 6 [1,2,3,4,5,6,7,8,9,10,11,12,13,14,15] 7 8 9) = .ok tp ∧
    tp.hp OMEGA = .fin 40 ∧ tp.cov OMEGA OMEGA = .fin 600 ∧ tp.cov D0 OMEGA = .fin 4 := by
  refine ⟨_, C59_covariance 1 2 3 4 5 6 7 8 9 _ (by simp), ?_, ?_, ?_⟩
  · simp [V5.re, OMEGA, lcioToAida, Matrix.mulVec, dotProduct, Fin.sum_univ_five]; norm_num
  · simp [M5.re, OMEGA, lcioToAida, lcioMatrix_eq, Matrix.mul_apply, Fin.sum_univ_five]; norm_num
  · simp [M5.re, OMEGA, D0, lcioToAida, lcioMatrix_eq, Matrix.mul_apply, Fin.sum_univ_five]; norm_num

end Verif
