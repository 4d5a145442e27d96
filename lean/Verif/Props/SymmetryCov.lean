import Verif.Props.Symmetry
import Verif.Props.MoveCov

/-!
# C91: covariance matrices of mirrored tracks
-/

open Classical

noncomputable section

namespace Verif

open Dbl Spec Matrix

/-- the signs of the parameters of a mirrored track: curvature, azimuth and d0 change sign -/
def mirrorSign : Fin 5 → ℝ := ![-1, 1, -1, -1, 1]

/-- the covariance matrix of the parameters of a mirrored track -/
def mirrorCov (C : Matrix (Fin 5) (Fin 5) ℝ) : Matrix (Fin 5) (Fin 5) ℝ := fun i j => mirrorSign i * C i j * mirrorSign j

theorem mirrorCov_eq (C : Matrix (Fin 5) (Fin 5) ℝ) : mirrorCov C = diagonal mirrorSign * C * diagonal mirrorSign := by
  ext i j
  simp [mirrorCov, Matrix.mul_diagonal, Matrix.diagonal_mul]

theorem mirror_mirror : (diagonal mirrorSign : Matrix (Fin 5) (Fin 5) ℝ) * diagonal mirrorSign = 1 := by
  rw [Matrix.diagonal_mul_diagonal, ← Matrix.diagonal_one]
  congr 1
  funext i
  fin_cases i <;> simp [mirrorSign]

theorem moveFR_mirror {om tl ph d f1 f2 dn fd : ℝ} {k : ℤ} (hf : f2 = -f1 + k * (2 * Real.pi)) :
    moveFR (-om) tl (-ph) (-d) f2 (-dn) (-fd) = mirrorCov (moveFR om tl ph d f1 dn fd) := by
  have e : f2 - -ph = -(f1 - ph) + k * (2 * Real.pi) := by rw [hf]; ring
  have hc : Real.cos (f2 - -ph) = Real.cos (f1 - ph) := by rw [e, Real.cos_add_int_mul_two_pi, Real.cos_neg]
  have hs : Real.sin (f2 - -ph) = -Real.sin (f1 - ph) := by rw [e, Real.sin_add_int_mul_two_pi, Real.sin_neg]
  have hr : 1 / (1 / -om - -dn) = -(1 / (1 / om - dn)) := by
    rw [div_neg, ← neg_sub', div_neg]
  unfold moveFR
  rw [hc, hs, hr]
  ext i j
  fin_cases i <;> fin_cases j <;> simp [mirrorCov, mirrorSign, div_neg] <;> try ring_nf <;> try tauto

variable {om tl ph d z : ℝ} {r q : R3}

/-- C91: if the covariance matrix is that of the mirrored parameters before the move, it is after the move, unless the track is moved
by exactly half a turn. -/
theorem C91_covariance_partial (h : om ≠ 0) (C : Matrix (Fin 5) (Fin 5) ℝ) (hoff : OffAxis (hpR om tl ph d z) (V3.of r) (q 0) (q 1)) :
    ∃ (C1 : Matrix (Fin 5) (Fin 5) ℝ) (f1 f2 e1 z1 w : ℝ) (k : ℤ),
      moveHelixTo ⟨M5.re C, hpR om tl ph d z, V3.of r⟩ (V3.of q) true = .ok (⟨M5.re C1, hpR om tl f1 e1 z1, V3.of q⟩, fin w) ∧
      (w ≠ Real.pi → moveHelixTo ⟨M5.re (mirrorCov C), hpR (-om) tl (-ph) (-d) z, V3.of (mirror r)⟩ (V3.of (mirror q)) true =
        .ok (⟨M5.re (mirrorCov C1), hpR (-om) tl f2 (-e1) z1, V3.of (mirror q)⟩, fin (-w)) ∧
      f2 = -f1 + k * (2 * Real.pi)) := by
  have hpi := Real.pi_pos
  have h' : -om ≠ 0 := neg_ne_zero.2 h
  obtain ⟨f1, d1, w1, ⟨⟨k1, a1⟩, a2, a3, a4, a5, a6, a7, a8⟩, hm⟩ := move_cov (q 2) h hoff
  have mx : ∀ f e x : ℝ, rCx (-om) (-f) (-e) x = rCx om f e x := by
    intro f e x; simp only [rCx, Real.sin_neg, div_neg]; ring
  have my : ∀ f e x : ℝ, rCy (-om) (-f) (-e) (-x) = -rCy om f e x := by
    intro f e x; simp only [rCy, Real.cos_neg, div_neg]; ring
  have hoff' : OffAxis (hpR (-om) tl (-ph) (-d) z) (V3.re (r 0) (-r 1) (r 2)) (q 0) (-q 1) := by
    rw [of_re, offAxis_re h] at hoff
    rw [offAxis_re h', mx, my]
    refine lt_of_lt_of_eq hoff ?_
    ring
  obtain ⟨f2, d2, w2, ⟨⟨k2, b1⟩, b2, b3, b4, b5, b6, b7, b8⟩, hm2⟩ := move_cov (q 2) h' hoff'
  obtain ⟨k, hk1, hk2⟩ := angle_range (-f1)
  have hcx : rCx (-om) f2 d2 (q 0) = rCx (-om) (-f1 + k * (2 * Real.pi)) (-d1) (q 0) := by
    rw [(rC_period _ _ _ k).1, b7, mx, mx, a7]
  have hcy : rCy (-om) f2 d2 (-q 1) = rCy (-om) (-f1 + k * (2 * Real.pi)) (-d1) (-q 1) := by
    rw [(rC_period _ _ _ k).2, b8, my, my, a8]
  obtain ⟨hf, hd⟩ := branch_unique h' hcx hcy b6 (by linarith) b4 b5 hk1 hk2
  refine ⟨_, f1, f2, d1, _, w1, k, hm C true, fun hne => ⟨?_, hf⟩⟩
  have hlt : w1 < Real.pi := lt_of_le_of_ne a3 hne
  have hw : w2 = -w1 := by
    refine angle_eq (k + k2 + k1) ?_ (by rw [abs_lt]; constructor <;> linarith)
    rw [b1, a1, hf]; push_cast; ring
  have e : 1 / -om * tl * -w1 = 1 / om * tl * w1 := by rw [div_neg]; ring
  have b9 := hm2 (mirrorCov C) true
  rw [hd, hw, e, moveFR_mirror hf] at b9
  have hC : mirrorCov (moveFR om tl ph d f1 d1 w1) * mirrorCov C * (mirrorCov (moveFR om tl ph d f1 d1 w1))ᵀ =
      mirrorCov (moveFR om tl ph d f1 d1 w1 * C * (moveFR om tl ph d f1 d1 w1)ᵀ) := by
    generalize moveFR om tl ph d f1 d1 w1 = F
    rw [mirrorCov_eq, mirrorCov_eq, mirrorCov_eq, Matrix.transpose_mul, Matrix.transpose_mul, Matrix.diagonal_transpose]
    have m := mirror_mirror
    generalize (diagonal mirrorSign : Matrix (Fin 5) (Fin 5) ℝ) = D at m
    calc D * F * D * (D * C * D) * (D * (Fᵀ * D)) = D * F * (D * D) * C * (D * D) * Fᵀ * D := by noncomm_ring
      _ = D * (F * C * Fᵀ) * D := by rw [m]; noncomm_ring
  rw [if_pos rfl, hC] at b9
  exact b9

/-- A case of C91_covariance_partial: the covariance of curvature and slope changes sign. -/
example : mirrorCov 1 = 1 ∧ ∀ C : Matrix (Fin 5) (Fin 5) ℝ, mirrorCov C 0 1 = -C 0 1 ∧ mirrorCov C 0 3 = C 0 3 := by
  refine ⟨?_, fun C => ⟨by simp [mirrorCov, mirrorSign], by simp [mirrorCov, mirrorSign]⟩⟩
  rw [mirrorCov_eq, Matrix.mul_one, mirror_mirror]

end Verif
