import Verif.Props.Undefined
import Verif.Props.Prepare
import Verif.Props.FitResults
import Verif.Props.Curvilinear
import Verif.Props.MoveHelix

/-!
# What adding surfaces and fitting leave unchanged: C92, C93, C96
-/

open Classical

noncomputable section

namespace Verif

open Dbl Traj

/-! ## C92: slope and covariance along a trajectory -/

/-- a move without update of the covariance keeps it, for all inputs -/
theorem move_keeps_cov {tp tp' : TP} {ref : V3} {w : Dbl} (h : moveHelixTo tp ref false = .ok (tp', w)) : tp'.cov = tp.cov := by
  unfold moveHelixTo at h
  obtain ⟨v, hv, h⟩ := Out.bind_eq_ok.mp h
  injection h with h
  injection h with h1 h2
  subst h1
  rfl

/-- the parameters have the slope and the covariance of the seed -/
def LikeSeed (seed : TP) (e : Element) : Prop := e.tp.hp TANL = seed.hp TANL ∧ e.tp.cov = seed.cov

theorem lossHp_tanl (surface : Surface) (uv : V2) (mom : V3) (mass : Dbl) (hp : V5) : lossHp surface uv mom mass hp TANL = hp TANL := by
  simp [lossHp, V5.set, TANL, OMEGA]

theorem step_likeSeed {env : Env} {t : Traj} {seed : TP} (op : AddOp) (hr : t.ref = seed) (h : ∀ e ∈ t.elems, LikeSeed seed e) :
    ∀ e ∈ (t.step env op).1.elems, LikeSeed seed e := by
  have hw : ∀ e ∈ t.withStart.elems, LikeSeed seed e := by
    unfold withStart
    by_cases h0 : t.elems = []
    · rw [if_pos h0]
      intro e he
      simp only [addElement, h0, List.nil_append, List.mem_singleton] at he
      subst he
      exact ⟨by rw [← hr]; rfl, by rw [← hr]; rfl⟩
    · rw [if_neg h0]; exact h
  by_cases ha : Adds op
  · obtain ⟨back, o, h1, h2, h3⟩ := step_cases env t op ha
    rw [h2]
    have hb := hw back (List.mem_of_getLast? h1)
    rcases append_cases t.withStart o with ⟨e, q1, q2⟩ | ⟨q1, -⟩
    · rw [q2]
      intro e' he'
      rcases List.mem_append.mp he' with he' | he'
      · exact hw e' he'
      · have he' : e' = e := by simpa using he'
        subst he'
        subst q1
        rcases h3 with ⟨pos, prec, surf, id, sc, -, h5⟩ | ⟨surf, -, h5⟩
        · obtain ⟨hit, tp, w, proj, r1, r2, r3, r4, rfl⟩ := measurement_ok h5.symm
          refine ⟨?_, (move_keeps_cov r3).trans hb.2⟩
          dsimp only
          rw [lossHp_tanl, (move_const r3).2.1, hb.1]
        · obtain ⟨hit, tp, w, proj, r1, r2, r3, r4, rfl⟩ := scatterer_ok h5.symm
          refine ⟨?_, (move_keeps_cov r3).trans hb.2⟩
          dsimp only
          rw [lossHp_tanl, (move_const r3).2.1, hb.1]
    · rw [q1]; exact hw
  · cases op with
    | measurement => exact absurd trivial ha
    | scatterer => exact absurd trivial ha
    | setMass m => exact h

/-- C92: after any history of calls every element has the slope and the covariance matrix of the seed, whatever the surfaces,
fields and numbers are (NaN included). -/
theorem C92_elements (env : Env) (tp : TP) (ops : List AddOp) :
    ∀ e ∈ (after env (make tp) ops).elems, e.tp.hp TANL = tp.hp TANL ∧ e.tp.cov = tp.cov := by
  induction ops with
  | nil => intro e he; cases he
  | cons op ops ih => exact step_likeSeed op (after_ref env (make tp) ops) ih

/-- C92: ... and still after `prepareForFitting`. -/
theorem C92_prepared {env : Env} {sort : List Element → List Element} (hsort : IsStdSort compareElements sort) (tp : TP)
    (ops : List AddOp) {t : Traj} (h : (after env (make tp) ops).prepareForFitting env sort = .ok t) :
    t.ref = tp ∧ ∀ e ∈ t.elems, e.tp.hp TANL = tp.hp TANL ∧ e.tp.cov = tp.cov := by
  obtain ⟨h1, -, -, h4, -⟩ := prepare_ok hsort h
  refine ⟨h1.trans (after_ref env (make tp) ops), fun e he => ?_⟩
  obtain ⟨e', he', heq⟩ := List.mem_map.mp (h4.subset (List.mem_map_of_mem (f := noJac) he))
  have := C92_elements env tp ops e' he'
  have htp : e'.tp = e.tp := by
    have := congrArg Element.tp heq
    exact this
  rwa [htp] at this

/-! ## C93: a fit does not depend on what was done before -/

namespace World

/-- the content of a result is determined by the fit, the trajectory and the label -/
theorem resultOf_unique {f : GblFit} {t : Traj} {field : V3 → V3} {label : ℤ} {r r' : FitResults} (h : ResultOf f t field label r)
    (h' : ResultOf f t field label r') : r = r' := by
  obtain ⟨n, e, a1, a2, a3, J, a4, a5, a6, a7⟩ := h.params
  obtain ⟨n', e', b1, b2, b3, J', b4, b5, b6, b7⟩ := h'.params
  have : n = n' := by omega
  subst this
  rw [a2] at b2
  injection b2 with b2
  subst b2
  rw [← a4] at b4
  subst b4
  have hnd : r.ndf = r'.ndf := by
    have := h.ndf.trans h'.ndf.symm
    exact_mod_cast this
  have hhp : r.estParams.hp = r'.estParams.hp := by
    rcases hf : f.results label with ⟨err, c, C⟩
    by_cases he : err = 0
    · subst he
      rw [a5 _ _ hf, b5 _ _ hf]
    · rw [a6 _ _ _ hf he, b6 _ _ _ hf he]
  have h1 := h.valid.trans h'.valid.symm
  have h2 := h.chi2.trans h'.chi2.symm
  have h3 := h.lost.trans h'.lost.symm
  have h4 := a3.trans b3.symm
  have h5 := a7.trans b7.symm
  cases r with
  | mk v c n l tp =>
    cases r' with
    | mk v' c' n' l' tp' =>
      cases tp
      cases tp'
      simp only at h1 h2 h3 h4 h5 hnd hhp
      subst h1 h2 h3 h4 h5 hnd hhp
      rfl

end World

open World in
/-- C93: the outcome of a fit depends on the trajectory only, not on what was fitted or asked for before. -/
theorem C93_outcome (gbl : Fitter) {w w' : World} {i i' : ℕ} (h : w.trajs i = w'.trajs i') :
    (w.fit gbl i).2 = (w'.fit gbl i').2 := by
  have e : w.clear.trajs i = w.trajs i := rfl
  have e' : w'.clear.trajs i' = w'.trajs i' := rfl
  unfold fit
  simp only [e, e', h]
  rcases w'.trajs i' with _ | ⟨t, field⟩
  · rfl
  · dsimp only
    cases gblPoints t.elems <;> rfl

open World in
/-- C93: neither do the results.  Two interfaces with any two histories fit equal trajectories; other results may be asked for
in between, and other trajectories changed.  The result for a label is then the same. -/
theorem C93_results (gbl : Fitter) (trajs trajs' : ℕ → Option (Traj × (V3 → V3))) (before before' : List Op) (i i' : ℕ) {t : Traj}
    {field : V3 → V3} {ps : List GblPoint} (ht : ((init trajs).run gbl before).trajs i = some (t, field))
    (ht' : ((init trajs').run gbl before').trajs i' = some (t, field)) (hps : gblPoints t.elems = .ok ps)
    (between between' : List Op) (hn : NoFit between) (hn' : NoFit between') (hs : ∀ t'', Op.setTraj i t'' ∉ between)
    (hs' : ∀ t'', Op.setTraj i' t'' ∉ between') (label : ℤ) {w1 w1' : World} {p p' : ℕ}
    (h1 : (((((init trajs).run gbl before).fit gbl i).1).run gbl between).getResults label = (w1, .ok p))
    (h1' : (((((init trajs').run gbl before').fit gbl i').1).run gbl between').getResults label = (w1', .ok p')) :
    ∃ r, w1.heap p = some r ∧ w1'.heap p' = some r := by
  obtain ⟨t1, f1, r, a1, a2, a3⟩ := C54_last_fit gbl trajs before i ht hps between hn label h1
  obtain ⟨t2, f2, r', b1, b2, b3⟩ := C54_last_fit gbl trajs' before' i' ht' hps between' hn' label h1'
  obtain ⟨rfl, rfl⟩ := a3 hs
  obtain ⟨rfl, rfl⟩ := b3 hs'
  exact ⟨r, a1, by rw [b1, resultOf_unique a2 b2]⟩

open World FitExample in
/-- C93 applies: once directly, once after a first fit and a result -/
example (c : Fin 5 → ℝ) : ∃ w1 w1' p p' r, ((world.run (good c) []).fit (good c) 0).1.getResults 0 = (w1, .ok p) ∧
    ((world.run (good c) [.fit 0, .results 0]).fit (good c) 0).1.getResults 0 = (w1', .ok p') ∧ w1.heap p = some r ∧ w1'.heap p' = some r := by
  obtain ⟨w1', p', r', J, h1, -⟩ := C56_example c (good c) rfl
  have hps : gblPoints [elem] = .ok [⟨M5.zero, none, none⟩] := rfl
  have hw : (world.run (good c) [.fit 0, .results 0]).trajs 0 = world.trajs 0 := by
    show ((((world.fit (good c) 0).1).getResults 0).1).trajs 0 = _
    have h1 : ∀ w : World, (w.getResults 0).1.trajs = w.trajs := by
      intro w
      rcases getResults_cases w 0 with ⟨p, -, e⟩ | ⟨-, _, _, _, _, _, -, -, -, -, e⟩ | ⟨e, -⟩ <;> rw [e]
    rw [h1, (fit_ok (good c) world 0 rfl hps).2.2.2.2.2.2]
  obtain ⟨p, hp⟩ := C56_defined (good c) (world.run (good c) []) 0 rfl hps 0 (by simp)
  obtain ⟨r, q1, q2⟩ := C93_results (good c) _ _ [] [.fit 0, .results 0] 0 0 (t := ⟨⟨M5.zero, hpR 1 0 0 0 0, V3.re 0 0 0⟩, [elem], [], pionMass⟩)
    (field := fun _ => V3.re 0 0 1) rfl hw hps [] [] (by intro o ho; cases ho) (by intro o ho; cases ho) (by simp) (by simp) 0
    (w1 := ((world.run (good c) []).fit (good c) 0).1.getResults 0 |>.1) (p := p) (Prod.ext rfl hp) h1
  exact ⟨_, _, p, p', r, Prod.ext rfl hp, h1, q1, q2⟩

/-! ## C96: the azimuth after a fit -/

namespace FitExample

/-- a track with azimuth 3 and slope 1, in a field along z -/
def elem3 : Element := { Element.start 0 ⟨M5.zero, hpR 1 1 3 0 0, V3.re 0 0 0⟩ 0 with jac := some M5.zero }

def world3 : World := World.init fun _ => some (⟨⟨M5.zero, hpR 1 1 3 0 0, V3.re 0 0 0⟩, [elem3], [], pionMass⟩, fun _ => V3.re 0 0 1)

end FitExample

namespace World

/-- the result of a fit of a single element -/
theorem fit_result (gbl : Fitter) (w : World) (i : ℕ) {t : Traj} {field : V3 → V3} {ps : List GblPoint}
    (ht : w.trajs i = some (t, field)) (hps : gblPoints t.elems = .ok ps) (n : ℕ) (hn : n < t.elems.length) :
    ∃ w1 p r, (w.fit gbl i).1.getResults n = (w1, .ok p) ∧ w1.heap p = some r ∧ ResultOf (gbl ps) t field n r := by
  obtain ⟨a1, a2, a3, a4, a5, a6, a7⟩ := fit_ok gbl w i ht hps
  have hnone := (fit_cases gbl w i).2.2.2 n
  obtain ⟨p, hp⟩ := C56_defined gbl w i ht hps n hn
  rcases getResults_cases (w.fit gbl i).1 n with ⟨q, hq, -⟩ | ⟨-, i', f', t', field', r, e1, e2, e3, e4, e⟩ | ⟨-, e⟩
  · rw [hnone] at hq; cases hq
  · rw [a3] at e1
    injection e1 with e1
    subst e1
    rw [a2] at e2
    injection e2 with e2
    subst e2
    rw [a7, ht] at e3
    injection e3 with e3
    injection e3 with e3 e3'
    subst e3 e3'
    exact ⟨_, _, r, e, if_pos rfl, resultOf_fill a4 a5 a6 e4⟩
  · exact absurd hp (e p)

end World

/-- only the last correction is not zero -/
theorem mulVec_4 (J : Matrix (Fin 5) (Fin 5) ℝ) (a : ℝ) (i : Fin 5) : J.mulVec ![0, 0, 0, 0, a] i = J i 4 * a := by
  simp [Matrix.mulVec, dotProduct, Fin.sum_univ_succ]

open World FitExample in
/-- C96 is false: the corrections are added to the azimuth and nothing brings the sum back to (-π, π].  The track has azimuth
3; the fit returns 4, while all other parameters but z0 stay. -/
theorem C96_false : ∃ w1 p r ph, (world3.fit (good ![0, 0, 0, 0, 1 / Real.sin (Real.arctan 1)]) 0).1.getResults 0 = (w1, .ok p) ∧
    w1.heap p = some r ∧ r.estParams.hp PHI0 = fin ph ∧ Real.pi < ph ∧ r.estParams.hp OMEGA = fin 1 ∧ r.estParams.hp TANL = fin 1 ∧
    r.estParams.hp D0 = fin 0 := by
  have hps : gblPoints [elem3] = .ok [⟨M5.zero, none, none⟩] := rfl
  obtain ⟨w1, p, r, q1, q2, q3⟩ := fit_result (good ![0, 0, 0, 0, 1 / Real.sin (Real.arctan 1)]) world3 0 rfl hps 0 (by simp)
  obtain ⟨J, k1, -, -, k3, -⟩ := C56_result q3 (err := 0) (c := ![0, 0, 0, 0, 1 / Real.sin (Real.arctan 1)]) (C := 1) rfl (e := elem3) rfl rfl rfl
    (Or.inr (Or.inr one_ne_zero))
  rw [curvilinearToL3_re one_ne_zero] at k1
  have hJ := M5.re_injective k1
  have k3 := k3 rfl
  have hs : Real.sin (Real.arctan 1) ≠ 0 := by
    rw [Real.sin_arctan]; positivity
  refine ⟨w1, p, r, 4, q1, q2, ?_, Real.pi_lt_four, ?_, ?_, ?_⟩
  · rw [k3, ← hJ]
    show fin (3 + _) = _
    rw [mulVec_4]
    congr 1
    show 3 + Verif.hs 1 * 1 * Real.sin (Real.arctan 1) * (1 / Real.sin (Real.arctan 1)) = 4
    rw [hs_eq one_ne_zero, if_pos one_pos]
    field_simp
    norm_num
  · rw [k3, ← hJ]
    show fin (1 + _) = _
    rw [mulVec_4]
    congr 1
    show 1 + 0 * _ = _
    ring
  · rw [k3, ← hJ]
    show fin (1 + _) = _
    rw [mulVec_4]
    congr 1
    show 1 + 0 * _ = _
    ring
  · rw [k3, ← hJ]
    show fin (0 + _) = _
    rw [mulVec_4]
    congr 1
    show 0 + 0 * _ = _
    ring

open World in
/-- C96, what does hold: the azimuth is the element's plus the correction, so it is in (-π, π] exactly if that sum is; moving the
fitted track with `moveHelixTo` always brings it back. -/
theorem C96_partial {f : GblFit} {t : Traj} {field : V3 → V3} {label : ℤ} {r : FitResults} (h : ResultOf f t field label r)
    {c : Fin 5 → ℝ} {C : Matrix (Fin 5) (Fin 5) ℝ} (hf : f.results label = (0, V5.re c, M5.re C))
    {om tl ph d z B x y q : ℝ} {cov : M5} {e : Element} (he : t.elems[label.toNat]? = some e)
    (htp : e.tp = ⟨cov, hpR om tl ph d z, V3.re x y q⟩) (hfield : field (V3.re x y q) = V3.re 0 0 B) (hB : B ≠ 0) :
    ∃ om' tl' ph' d' z', r.estParams.hp = hpR om' tl' ph' d' z' ∧ r.estParams.rp = V3.re x y q ∧
      ph' = ph + hs B * om * Real.sin (Real.arctan tl) * c 4 ∧
      ∀ vx vy vz upd, om' ≠ 0 → OffAxis (hpR om' tl' ph' d' z') (V3.re x y q) vx vy → ∃ tp' a p', moveHelixTo r.estParams (V3.re vx vy vz) upd = .ok (tp', a) ∧
        tp'.hp PHI0 = fin p' ∧ -Real.pi < p' ∧ p' ≤ Real.pi := by
  obtain ⟨J, k1, k2, -, k3, -⟩ := C56_result h hf he htp hfield (Or.inr (Or.inr hB))
  rw [curvilinearToL3_re hB] at k1
  have hJ := M5.re_injective k1
  have k3 := k3 rfl
  have hr : r.estParams = ⟨r.estParams.cov, hpR (om + J.mulVec c 0) (tl + J.mulVec c 1) (ph + J.mulVec c 2) (d + J.mulVec c 3)
      (z + J.mulVec c 4), V3.re x y q⟩ := by
    rw [← k2, hpR_eq_re]
    have : (![om + J.mulVec c 0, tl + J.mulVec c 1, ph + J.mulVec c 2, d + J.mulVec c 3, z + J.mulVec c 4] : Fin 5 → ℝ) =
        ![om, tl, ph, d, z] + J.mulVec c := by
      funext i; fin_cases i <;> rfl
    rw [this, ← k3]
  refine ⟨_, _, _, _, _, by rw [hr], k2, ?_, fun vx vy vz upd ho hoff => ?_⟩
  · rw [← hJ]
    simp [Matrix.mulVec, dotProduct, Fin.sum_univ_succ]
  · obtain ⟨tp', a, p', d', m1, m2, -, m3, m4, -⟩ := C15_normalised _ _ _ _ _ _ _ _ _ _ _ _ _ ho hoff
    rw [hr]
    exact ⟨tp', a, p', m1, m2, m3, m4⟩

end Verif
