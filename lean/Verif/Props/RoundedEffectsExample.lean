import Verif.Props.RoundedEffects
import Verif.Props.RoundedRefitExample

/-!
# C168: an example
-/

open Classical

noncomputable section

namespace Verif

open Dbl Traj Refit Rnd

variable {A : Arith}

/-- a track state with the radius 128 cm and 45 degrees through the origin -/
def siliconState (fl : ℝ → ℝ) : TrackState := ⟨1, fin 0, fin 0, fin (1 / 128 * fl (1 / 10)), fin 0, fin 1, List.replicate 15 (fin 0), V3.re 0 0 0⟩

theorem siliconState_read (h : NearestF 53 1074 A.fl) : ∃ C, Rnd.readLCIO A.fl (siliconState A.fl) = .ok ⟨C, hpR (1 / 128) 1 0 0 0, V3.re 0 0 0⟩ := by
  have big : ∀ {x : ℝ}, |x| ≤ 1 → |x| ≤ 2 ^ 1000 := fun hx => hx.trans (one_le_pow₀ (by norm_num))
  have t : (1 : ℝ) / 2 ^ 1075 ≤ 1 / 100 := one_div_le_one_div_of_le (by norm_num) (le_trans (show (100 : ℝ) ≤ 2 ^ 7 by norm_num) (pow_le_pow_right₀ (by norm_num) (by norm_num)))
  have r := abs_le.1 (err_double h (1 / 10))
  have m0 : A.fl (1 / 10) ≠ 0 := by
    rw [abs_of_pos (by norm_num)] at r
    norm_num at r t ⊢
    intro q
    rw [q] at r
    linarith [r.1]
  have mm : Rnd.mmD A.fl = fin (A.fl (1 / 10)) := rnd_double h (big (by rw [abs_of_pos] <;> norm_num))
  have q : divD A.fl (fin (1 / 128 * A.fl (1 / 10))) (Rnd.mmD A.fl) = fin (1 / 128) := by
    rw [mm, divD, fin_div _ m0, mul_div_assoc, div_self m0, mul_one, rnd_double h (big (by rw [abs_of_pos] <;> norm_num)), h.fix]
    exact ⟨1, 1067, by norm_num, by
      rw [show (2 : ℝ) ^ 1074 = 2 ^ 1067 * 2 ^ 7 by rw [← pow_add]]
      push_cast
      generalize (2 : ℝ) ^ 1067 = M
      ring⟩
  have z : mulD A.fl (fin 0) (Rnd.mmD A.fl) = fin 0 := by rw [mm, mulD, fin_mul, zero_mul, rnd_zero h]
  have v : ∀ i, i < 15 → vecAt (siliconState A.fl).cov i = .ok (fin 0) := by
    intro i hi
    have : (siliconState A.fl).cov[i]? = some (fin 0) := by
      rw [siliconState, List.getElem?_replicate, if_pos hi]
    simp [vecAt, this]
  unfold Rnd.readLCIO
  simp only [v 5 (by norm_num), v 14 (by norm_num), v 2 (by norm_num), v 0 (by norm_num), v 9 (by norm_num), v 12 (by norm_num), v 4 (by norm_num), v 3 (by norm_num),
    v 8 (by norm_num), v 11 (by norm_num), v 10 (by norm_num), v 13 (by norm_num), v 1 (by norm_num), v 7 (by norm_num), v 6 (by norm_num), Out.ok_bind, Out.pure_eq]
  have e1 : divD A.fl (siliconState A.fl).omega (Rnd.mmD A.fl) = fin (1 / 128) := q
  have e2 : mulD A.fl (siliconState A.fl).d0 (Rnd.mmD A.fl) = fin 0 := z
  have e3 : mulD A.fl (siliconState A.fl).z0 (Rnd.mmD A.fl) = fin 0 := z
  have e4 : mulD A.fl (siliconState A.fl).ref.x (Rnd.mmD A.fl) = fin 0 := z
  have e5 : mulD A.fl (siliconState A.fl).ref.y (Rnd.mmD A.fl) = fin 0 := z
  have e6 : mulD A.fl (siliconState A.fl).ref.z (Rnd.mmD A.fl) = fin 0 := z
  rw [e1, e2, e3, e4, e5, e6]
  have p : (((((V5.zero.set OMEGA (fin (1 / 128))).set TANL (siliconState A.fl).tanLambda).set PHI0 (siliconState A.fl).phi).set D0 (fin 0)).set Z0 (fin 0)) =
      hpR (1 / 128) 1 0 0 0 := by
    funext i
    fin_cases i <;> rfl
  rw [p]
  exact ⟨_, rfl⟩

/-- the theorems of C168 for a file with three events, the second one with a single track of pions with the radius 128 cm, and a disk of silicon, with any hits on other
surfaces: one event is written, without hits, with the number of degrees of freedom of the fit of two points; `sin 0` and `atan2(0, x)` are zero, as for every
library -/
theorem C168_example (h : NearestF 53 1074 A.fl) (hl : IsLibm A.lm) (ha : IsAtan2 A.at2) (h00 : |A.at2 0 0| ≤ 4) (hat : IsAtan A.atn) (hlg : IsLogLib A.lg)
    (hs0 : A.lm.sin 0 = 0) (h0x : ∀ c, 0 < c → A.at2 0 c = 0) {S : Setup} (hI : IsStdSort sortWithS S.sortI) (hE : IsStdSort compareElements S.sortE)
    (hB : S.env.globalField = fun _ => V3.re 0 0 3.5) (hS : S.surfaces = [siliconDisk]) {hits : List TrackHit}
    (hh : ∀ x ∈ MatEff.candidates hits, x.cellID0 ≠ 0) (i id : ℕ) (w : World) (a b : InTrack) :
    ∃ ps o, ps.length = 2 ∧ o.hits = [] ∧ o.ndf = toInt (S.gbl ps).ndf ∧
      Rnd.Eff.events A S i id w (fun _ => none) [[], [⟨siliconState A.fl, hits⟩], [a, b]] = .ok [o] := by
  obtain ⟨C, hC⟩ := siliconState_read h
  obtain ⟨s, t2, t, e0, e1, hint, hstep, hj, r1, r2, r3, r4⟩ := Rnd.silicon_fitted h hl ha h00 hat hlg hs0 h0x hI hE hB C
  have m0 : MatEff.fillMap (fun _ => none) hits siliconDisk.id = none := by
    rw [MatEff.fillMap_eq]
    rcases MatEff.foldl_spec (fun _ => none) (MatEff.candidates hits) siliconDisk.id with ⟨x, ⟨u, v, q1, q2, -⟩, -⟩ | ⟨-, e⟩
    · exact absurd q2 (hh x (by rw [q1]; simp))
    · exact e
  have he : ¬ (siliconDisk.innerMaterial.density < lit A.fl 1e-6 ∧ siliconDisk.outerMaterial.density < lit A.fl 1e-6) := by
    rintro ⟨q, -⟩
    obtain ⟨v, e1, e2⟩ := (Rel.lit (k := 20) (x := 1e-6) h (by norm_num) (by norm_num) (by norm_num)).val
    have d : siliconDisk.innerMaterial.density = fin 2.33 := rfl
    rw [d, e1, fin_lt] at q
    have := (abs_le.1 e2).2
    norm_num at this q
    linarith
  have ht : Rnd.Eff.trajectory A S id (MatEff.fillMap (fun _ => none) hits) ⟨C, hpR (1 / 128) 1 0 0 0, V3.re 0 0 0⟩ = .ok (t, []) := by
    unfold Rnd.Eff.trajectory
    rw [hS, hint]
    simp only [Out.ok_bind, Rnd.Eff.addAll, m0, cif_neg he, hstep, hj]
    rfl
  obtain ⟨ps, e, J, p, w', o, a1, -, -, -, a4, a5, -, -, a8, -⟩ := C168_refitted (trk := ⟨siliconState A.fl, hits⟩) hI hE i id w hC ht
  obtain ⟨-, -, ⟨ps', b1, b2, -⟩, -⟩ := C168_points hI hE ht
  obtain rfl := Out.ok.inj (a1.symm.trans b1)
  refine ⟨ps, o, ?_, a5, a8, (C168_file hI hE i id w _ _).2 (.cons ⟨i, w, w', a4⟩ .nil)⟩
  have := congrArg List.length b2
  simpa [r1] using this

end Verif
