import Verif.Props.LeastSquares
import Verif.Props.RefitState

/-!
# C127 for the program lcio_tracks
-/

open Classical

noncomputable section

namespace Verif

open Dbl Traj World Refit

/-- precisions of hits are not negative -/
theorem notNeg_inverse (q : Dbl) : NotNeg (1 / (q * q)) := by
  intro x h
  cases q with
  | fin y =>
    rw [fin_mul] at h
    by_cases hy : y * y = 0
    · rw [hy, one_eq, fin_div_zero one_ne_zero] at h; cases h
    · rw [one_eq, fin_div _ hy, fin_inj] at h
      rw [← h]; exact div_nonneg zero_le_one (mul_self_nonneg y)
  | inf s =>
    rw [one_eq] at h
    cases s <;> simp at h <;> exact h.le
  | nan => simp at h

theorem serves_precision {hits : List (Option TrkHit)} {oneD : Surface → Bool} {l : List Surface} {ops : List AddOp}
    (h : Serves hits oneD l ops) : ∀ op ∈ ops, UserPrecision op := by
  induction h with
  | nil => intro op h; cases h
  | hit hh hr hl ih =>
    intro op hop
    rcases List.mem_cons.mp hop with rfl | hop
    · intro p hp
      simp only [List.mem_cons, List.not_mem_nil, or_false] at hp
      rcases hp with rfl | rfl
      · exact notNeg_inverse _
      · split_ifs
        · exact notNeg_zero
        · exact notNeg_inverse _
    · exact ih op hop
  | scatterer hh he hl ih =>
    intro op hop
    rcases List.mem_cons.mp hop with rfl | hop
    · trivial
    · exact ih op hop
  | skip hh he hl ih => exact ih

/-- C127 for lcio_tracks: if no hit has a residual with respect to the start helix, the program writes the start helix (its covariance
matrix is that of the fit). -/
theorem C127_refit {S : Setup} (hg : IsLeastSquares S.gbl) (hI : IsStdSort sortWithS S.sortI) (hE : IsStdSort compareElements S.sortE)
    {trk : InTrack} {o : OutTrack} (h : Refitted S trk o) (h3 : 3 ≤ trk.hits.length) {om tl ph d z : ℝ} (hd : om * d < 1)
    (b1 : -Real.pi < ph) (b2 : ph ≤ Real.pi) (hs : seed trk.hits = .ok ⟨seedCov M5.zero, hpR om tl ph d z, V3.zero⟩) {t : Traj}
    (ht : trajectory S ⟨seedCov M5.zero, hpR om tl ph d z, V3.zero⟩ trk.hits = .ok t)
    (hpos : ∀ e ∈ t.elems, e.surface ≠ none → 0 < e.arc)
    (hz : ∀ e ∈ t.elems, e.measurement = true → e.residuals = [fin 0, fin 0]) {rs : List RealPoint}
    (hps : gblPoints t.elems = .ok (rs.map RealPoint.gbl)) {bx by' bz : ℝ} (hfield : S.env.field V3.zero = V3.re bx by' bz)
    (hB : bx ≠ 0 ∨ by' ≠ 0 ∨ bz ≠ 0) :
    ∃ C, o.states = [{ createLCIO S.fl ⟨C, hpR om tl ph d z, V3.zero⟩ with ref := V3.zero, location := 1 }] := by
  obtain ⟨ps, err, c, C, J, tp, q1, q2, q3, q4, q5, -⟩ := C100_state hI hE h h3 hd b1 b2 hs ht hpos
  rw [hps] at q1
  injection q1 with q1
  subst q1
  have hw : ∀ p ∈ rs, Weighted p := by
    obtain ⟨L, ops, t', -, -, r3, r4, rfl⟩ := C99_calls hI ht (rawHits_exists _)
    refine points_weighted hps fun e he => ?_
    obtain ⟨e0, h0, h00⟩ := prepared_mem hE r4 he
    refine weighted_noJac h00 (after_weighted (fun op hop => ?_) (by simp [make]) e0 h0)
    exact serves_precision r3 op (List.mem_reverse.mp hop)
  have hz' : ∀ p ∈ rs, startCost p = 0 := by
    intro p hpm
    have hf := points_elems hps
    obtain ⟨e', he', hpe⟩ : ∃ e' ∈ t.elems, gblPoint e' = .ok p.gbl := by
      clear ht hps hpos hz q2
      generalize t.elems = l at hf
      induction hf with
      | nil => cases hpm
      | cons a b ih =>
        rcases List.mem_cons.mp hpm with rfl | hpm
        · exact ⟨_, by simp, a⟩
        · obtain ⟨e', q1, q2⟩ := ih (fun p hp => hw p (by simp [hp])) hpm
          exact ⟨e', by simp [q1], q2⟩
    rw [startCost_elem hpe]
    unfold elemCost
    cases hm : e'.measurement with
    | false => rfl
    | true =>
      rw [hz e' he' hm]
      cases e'.precisions with
      | nil => rfl
      | cons a l =>
        cases l with
        | nil => cases a <;> rfl
        | cons b l => cases a <;> cases b <;> simp
  have hne : rs ≠ [] := by
    rintro rfl
    obtain ⟨e, e1, -⟩ := C100_first hI hE hd b1 b2 ht hpos
    have := (points_elems hps).length_eq
    have h2 : 0 < t.elems.length := (List.getElem?_eq_some_iff.mp e1).1
    simp at this
    rw [this] at h2
    simp at h2
  obtain ⟨M, hM⟩ := curvilinearToL3_fin om tl ph d z bx by' bz hB
  have hc : (if err = 0 then c else V5.zero) = V5.zero := by
    by_cases he : err = 0
    · rw [if_pos he]
      rcases hg rs hne with ⟨-, f2⟩ | ⟨x, κ, hfit, -, -, f4⟩
      · have := f2 0
        rw [q2] at this
        exact absurd he this
      · obtain ⟨-, f5⟩ := fit_zero hfit hw hz'
        obtain ⟨k, hk, c', C', hres, hc⟩ := f4 0
        rw [q2] at hres
        simp only [Prod.mk.injEq] at hres
        rw [hres.2.1]
        have hc0 : c' = 0 := by
          obtain ⟨x0, k0⟩ := f5 k hk
          rcases hc with rfl | rfl
          · exact x0
          · rw [x0, k0, zero_add]; funext i; fin_cases i <;> rfl
        rw [hc0]
        funext i
        rw [Pi.zero_apply, ← zero_eq]; rfl
    · rw [if_neg he]
  refine ⟨M5.mul (M5.mul J C) (M5.transpose J), ?_⟩
  have hv : V5.add (hpR om tl ph d z) (M5.mulVec (M5.re M) V5.zero) = hpR om tl ph d z := by
    rw [show V5.zero = V5.re 0 from by funext i; simp [V5.zero, V5.re], M5.mulVec_re, Matrix.mulVec_zero, hpR_eq_re]
    funext i
    simp [V5.add, V5.re]
  rw [q5, q4, hc, q3, hfield, hM, hv]

end Verif
