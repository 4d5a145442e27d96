import Verif.Props.RefitExample
import Verif.Props.EnergyLoss

/-!
# C106: the prefit of `lcio_tracks`
-/

open Classical

noncomputable section

namespace Verif

open Dbl Traj Refit

namespace Refit

/-- `surf` is the last of the surfaces with this number -/
def LastSurface (l : List Surface) (id : ℤ) (surf : Surface) : Prop :=
  ∃ a b, l = a ++ surf :: b ∧ surf.id = id ∧ ∀ s ∈ b, s.id ≠ id

/-- the calls for the hits with these indices -/
inductive PrefitCalls (S : Setup) (hits : List TrackHit) : List ℕ → List AddOp → Prop
  | nil : PrefitCalls S hits [] []
  | hit {i l ops h surf du dv} (hi : hits[i]? = some h) (hs : LastSurface S.surfaces h.hit.cellID0 surf)
      (hr : resolution h.hit = .ok (du, dv)) (hl : PrefitCalls S hits l ops) :
      PrefitCalls S hits (i :: l) (.measurement
        ⟨h.hit.pos.x * fin (1 / 10), h.hit.pos.y * fin (1 / 10), h.hit.pos.z * fin (1 / 10)⟩
        [1 / (du * du), if S.oneD surf then 0 else 1 / (dv * dv)] surf h.hit.addr false :: ops)
  | skip {i l ops h} (hi : hits[i]? = some h) (hs : ∀ s ∈ S.surfaces, s.id ≠ h.hit.cellID0) (hl : PrefitCalls S hits l ops) :
      PrefitCalls S hits (i :: l) ops

theorem find_last {l : List Surface} {id : ℤ} {surf : Surface}
    (h : l.reverse.find? (fun s => decide (s.id = id)) = some surf) : LastSurface l id surf := by
  rw [List.find?_eq_some_iff_append] at h
  obtain ⟨h1, a, b, h2, h3⟩ := h
  refine ⟨b.reverse, a.reverse, ?_, by simpa using h1, fun s hs => by simpa using h3 s (List.mem_reverse.1 hs)⟩
  have := congrArg List.reverse h2
  simpa using this

theorem after_snoc (env : Env) (t : Traj) (op : AddOp) (l : List AddOp) :
    after env t (l ++ [op]) = after env (t.step env op).1 l := by
  induction l with
  | nil => rfl
  | cons o l ih => simp only [List.cons_append, after, ih]

theorem prefitAdd_ok {S : Setup} {hits : List TrackHit} {idx : List ℕ} {t t' : Traj} (h : prefitAdd S hits t idx = .ok t') :
    ∃ ops, PrefitCalls S hits idx ops ∧ t' = after S.env t ops.reverse := by
  induction idx generalizing t with
  | nil =>
    injection h with h
    exact ⟨[], .nil, h.symm⟩
  | cons i idx ih =>
    rw [prefitAdd] at h
    obtain ⟨x, h1, h⟩ := Out.bind_eq_ok.mp h
    have hx : hits[i]? = some x := by
      unfold hitAt at h1
      cases hh : hits[i]? with
      | none => rw [hh] at h1; cases h1
      | some y => rw [hh] at h1; injection h1 with h1; rw [h1]
    cases hf : S.surfaces.reverse.find? (fun s => decide (s.id = x.hit.cellID0)) with
    | none =>
      rw [hf] at h
      obtain ⟨ops, a, b⟩ := ih h
      refine ⟨ops, .skip hx ?_ a, b⟩
      intro s hs
      have := List.find?_eq_none.1 hf s (List.mem_reverse.2 hs)
      simpa using this
    | some surf =>
      rw [hf] at h
      dsimp only at h
      obtain ⟨⟨pos, prec⟩, h2, h⟩ := Out.bind_eq_ok.mp h
      obtain ⟨⟨du, dv⟩, h4, h5⟩ := Out.bind_eq_ok.mp h2
      injection h5 with h5
      injection h5 with h5 h6
      dsimp only at h
      obtain ⟨b, -, h⟩ := Out.bind_eq_ok.mp h
      obtain ⟨ops, e1, e2⟩ := ih h
      refine ⟨_, .hit hx (find_last hf) h4 e1, ?_⟩
      rw [e2, List.reverse_cons, after_snoc, ← h5, ← h6]
      rfl

/-- without scatterers and measurements on scatterers no element is a scatterer -/
theorem after_noScatterer (env : Env) (tp : TP) (h : List AddOp)
    (hop : ∀ op ∈ h, ∃ p prec s id, op = .measurement p prec s id false) : ∀ e ∈ (after env (make tp) h).elems, e.scatterer = false := by
  induction h with
  | nil => intro e he; cases he
  | cons op h ih =>
    have ih := ih fun o ho => hop o (by simp [ho])
    obtain ⟨p, prec, s, id, rfl⟩ := hop op (by simp)
    have hw : ∀ e ∈ (after env (make tp) h).withStart.elems, e.scatterer = false := by
      intro e he
      unfold withStart at he
      by_cases h0 : (after env (make tp) h).elems = []
      · rw [if_pos h0] at he
        simp only [addElement, h0, List.nil_append, List.mem_singleton] at he
        rw [he]; rfl
      · rw [if_neg h0] at he
        exact ih e he
    obtain ⟨back, o, -, e1, hop⟩ := step_cases env (after env (make tp) h) (.measurement p prec s id false) trivial
    intro e he
    rw [after, e1] at he
    rcases append_cases (after env (make tp) h).withStart o with ⟨x, hx, h1⟩ | ⟨h1, -⟩
    · rw [h1] at he
      rw [List.mem_append, List.mem_singleton] at he
      rcases he with he | rfl
      · exact hw e he
      · rcases hop with ⟨p, prec, surf, id, sc, e2, ho⟩ | ⟨surf, e2, -⟩
        · injection e2 with _ _ _ _ e2
          rw [hx, ← e2] at ho
          obtain ⟨hit, tp, w, proj, -, -, -, -, h5⟩ := measurement_ok ho.symm
          rw [h5]
        · cases e2
    · rw [h1] at he
      exact hw e he

theorem prefitCalls_ops {S : Setup} {hits : List TrackHit} {idx : List ℕ} {ops : List AddOp} (h : PrefitCalls S hits idx ops) :
    ∀ op ∈ ops, PrecGiven op ∧ ∃ p prec s id, op = .measurement p prec s id false := by
  induction h with
  | nil => intro op h; cases h
  | hit hi hs hr hl ih =>
    intro op hop
    rw [List.mem_cons] at hop
    rcases hop with rfl | hop
    · exact ⟨by simp [PrecGiven], _, _, _, _, rfl⟩
    · exact ih op hop
  | skip hi hs hl ih => exact ih

end Refit

/-- C106 (partial): if the trajectory of the prefit can be made, `createPreFit` returns.  The trajectory has a measurement for
each of the chosen hits with a surface of its number, in order, and no scatterer.  If the fit succeeds its result at the first
element is returned, otherwise the start helix at the origin.  Missing: energy loss is not left out (`C106_loss_false`). -/
theorem C106_prefit_partial {S : Setup} (hE : IsStdSort compareElements S.sortE) (i : ℕ) (w : World) {tp tp0 : TP} {a : Dbl}
    {hits : List TrackHit} {t1 t : Traj} (hm : moveHelixTo tp V3.zero false = .ok (tp0, a))
    (h1 : prefitAdd S hits (make tp0) (prefitLoop hits.length 0) = .ok t1) (h2 : t1.prepareForFitting S.env S.sortE = .ok t) :
    ∃ ops ps w' tp', PrefitCalls S hits (prefitLoop hits.length 0) ops ∧ t1 = after S.env (make tp0) ops.reverse ∧
      gblPoints t.elems = .ok ps ∧ (∀ p ∈ ps, p.scat = none) ∧
      createPreFit S i w tp hits = .ok (w', tp') ∧
      ((S.gbl ps).ret = 0 → ∃ r, ResultOf (S.gbl ps) t S.env.field 0 r ∧ tp' = r.estParams) ∧
      ((S.gbl ps).ret ≠ 0 → tp' = tp0) := by
  obtain ⟨ops, c1, c2⟩ := prefitAdd_ok h1
  have hops := prefitCalls_ops c1
  have hprep := h2
  rw [c2] at hprep
  obtain ⟨ps, hps, -, -, hsc, -⟩ := C73_points hE tp0 ops.reverse (fun op h => (hops op (List.mem_reverse.1 h)).1) hprep
  obtain ⟨-, -, -, hperm, -, first, rest, h6, -⟩ := prepare_ok hE hprep
  have hne : 0 < t.elems.length := by rw [h6]; simp
  have hscat : ∀ p ∈ ps, p.scat = none := by
    have hel : ∀ e ∈ t.elems, e.scatterer = false := by
      intro e he
      obtain ⟨e', he', h⟩ := List.mem_map.1 (hperm.subset (List.mem_map_of_mem he))
      have h1 := congrArg Element.scatterer h
      have h2 := after_noScatterer S.env tp0 ops.reverse (fun op h => (hops op (List.mem_reverse.1 h)).2) e' he'
      exact h1.symm.trans h2
    intro p hp
    have : p.scat.isSome ∈ t.elems.map Element.scatterer := by rw [← hsc]; exact List.mem_map_of_mem (f := fun p => p.scat.isSome) hp
    obtain ⟨e, he, h⟩ := List.mem_map.1 this
    rw [hel e he] at h
    simpa using h.symm
  obtain ⟨w1, p, r, f1, f2, f3⟩ := World.fit_result S.gbl (w.step S.gbl (.setTraj i (some (t, S.env.field)))) i
    (t := t) (field := S.env.field) (by simp [World.step]) hps 0 hne
  have g1 := (fit_ok S.gbl (w.step S.gbl (.setTraj i (some (t, S.env.field)))) i (t := t) (field := S.env.field)
    (by simp [World.step]) hps).1
  rw [show (((0 : ℕ) : ℤ)) = 0 from rfl] at f1
  by_cases hr : (S.gbl ps).ret = 0
  · refine ⟨ops, ps, w1.step S.gbl (.setTraj i none), r.estParams, c1, c2, hps, hscat, ?_, fun _ => ⟨r, f3, rfl⟩, fun h => absurd hr h⟩
    unfold createPreFit
    simp only [hm, h1, h2, Out.ok_bind, g1, hr, decide_true, if_true, f1, f2]
    rfl
  · refine ⟨ops, ps, ((w.step S.gbl (.setTraj i (some (t, S.env.field)))).fit S.gbl i).1.step S.gbl (.setTraj i none), tp0, c1, c2, hps, hscat, ?_, fun h => absurd h hr, fun _ => rfl⟩
    unfold createPreFit
    simp only [hm, h1, h2, Out.ok_bind, g1, hr, decide_false, Bool.false_eq_true, if_false]
    rfl

/-- C106 is false: if none of the chosen hits has the number of a surface, the behaviour is undefined. -/
theorem C106_empty_false {S : Setup} (hE : IsStdSort compareElements S.sortE) (i : ℕ) (w : World) {tp tp0 : TP} {a : Dbl}
    {hits : List TrackHit} (hm : moveHelixTo tp V3.zero false = .ok (tp0, a))
    (hn : ∀ h ∈ hits, ∀ s ∈ S.surfaces, s.id ≠ h.hit.cellID0) : ∃ m, createPreFit S i w tp hits = .ub m := by
  have key : ∀ idx : List ℕ, (∀ k ∈ idx, k < hits.length) → ∀ t, prefitAdd S hits t idx = .ok t := by
    intro idx
    induction idx with
    | nil => intro _ t; rfl
    | cons k idx ih =>
      intro hk t
      have hlt := hk k (by simp)
      have hf : S.surfaces.reverse.find? (fun s => decide (s.id = hits[k].hit.cellID0)) = none := by
        rw [List.find?_eq_none]
        intro s hs
        simpa using hn hits[k] (List.getElem_mem hlt) s (List.mem_reverse.1 hs)
      rw [prefitAdd, hitAt_ok (List.getElem?_eq_getElem hlt), Out.ok_bind]
      dsimp only
      rw [hf]
      exact ih (fun j hj => hk j (by simp [hj])) t
  have hidx : ∀ n i k, k ∈ prefitLoop n i → k < n := by
    intro n i
    generalize hm : n - i = m
    induction m using Nat.strong_induction_on generalizing i with
    | _ m ih =>
      intro k hk
      rw [prefitLoop] at hk
      by_cases hin : i < n
      · rw [dif_pos hin, List.mem_cons] at hk
        have hs : 0 < prefitStep n := by unfold prefitStep; split <;> omega
        rcases hk with rfl | hk
        · exact hin
        · exact ih (n - (i + prefitStep n)) (by omega) _ rfl k hk
      · rw [dif_neg hin] at hk; cases hk
  obtain ⟨m, hp⟩ := C50_empty S.env hE (make tp0) rfl
  refine ⟨m, ?_⟩
  unfold createPreFit
  rw [hm, Out.ok_bind]
  dsimp only
  rw [key _ (hidx _ 0) _, Out.ok_bind, hp]
  rfl

open Example in
/-- C106 is false: the measurement on a disk with material changes the curvature of the track by the energy loss. -/
theorem C106_loss_false (h : TrackHit) (hid : h.hit.cellID0 = 0) {du dv : Dbl} (hr : resolution h.hit = .ok (du, dv)) (gbl : Fitter)
    (sortI : List (Dbl × Surface) → List (Dbl × Surface)) (sortE : List Element → List Element) (fl : ℝ → ℝ) :
    ∃ (th : ℝ) (t : Traj) (e : Element) (om : ℝ),
      prefitAdd ⟨env, [diskT th], fun _ => false, gbl, sortI, sortE, fl⟩ [h] (make tp) (prefitLoop 1 0) = .ok t ∧
      t.elems.getLast? = some e ∧ tp.hp OMEGA = fin 1 ∧ e.tp.hp OMEGA = fin om ∧ om ≠ 1 := by
  obtain ⟨th, e, om, h1, h2, h3, h4⟩ := C78_charge_false (scaled h.hit.pos) [1 / (du * du), 1 / (dv * dv)] h.hit.addr false
  refine ⟨th, { (make tp).withStart with elems := (make tp).withStart.elems ++ [e] }, e, om, ?_, by simp, h2, h3, by linarith⟩
  have hl : prefitLoop 1 0 = [0] := by
    rw [prefitLoop, dif_pos (by omega), prefitLoop, dif_neg (by simp [prefitStep])]
  rw [hl, prefitAdd, hitAt_ok (x := h) rfl, Out.ok_bind]
  have hf : [diskT th].reverse.find? (fun s => decide (s.id = h.hit.cellID0)) = some (diskT th) := by
    simp [hid, diskT, diskB]
  dsimp only
  rw [hf]
  simp only [getHitInfo, hr, Out.ok_bind, Out.pure_eq]
  simp only [Bool.false_eq_true, if_false]
  rw [h1]
  simp only [Out.ok_bind, prefitAdd]

namespace Example

theorem four_move : moveHelixTo fourSeed V3.zero false = .ok (fourSeed, fin 0) := by
  have hpi := Real.pi_pos
  obtain ⟨f, k, e, b1, b2, h⟩ := move_to_track (tl := 1) (ph := 0) (d := 0) (z := 0) (rx := 0) (ry := 0) (rz := 0) (sv := 0) (seedCov M5.zero)
    (one_ne_zero (α := ℝ)) (by simpa using hpi)
  have hf : f = 0 := angle_eq k (by rw [e]; ring) (by rw [abs_lt]; constructor <;> linarith)
  have hp : pointAt (fin 0) (hpR 1 1 0 0 0) (V3.re 0 0 0) = V3.zero := by
    rw [pointAt_re one_ne_zero, four_zero]
    simp [rX, rY, rZ]
  rw [hp, hf, ← four_zero] at h
  simpa [fourSeed] using h

/-- a case for C106: the four hits with the disk as only surface, with any fit program -/
example {gbl : Fitter} {sortI : List (Dbl × Surface) → List (Dbl × Surface)} {sortE : List Element → List Element}
    {fl : ℝ → ℝ} (hE : IsStdSort compareElements sortE) (i : ℕ) (w : World) :
    ∃ t1 t w' tp', prefitAdd (fourSetup gbl sortI sortE fl) fourHits (make fourSeed) (prefitLoop fourHits.length 0) = .ok t1 ∧
      t1.prepareForFitting env sortE = .ok t ∧ t1.elems.length = 2 ∧
      createPreFit (fourSetup gbl sortI sortE fl) i w fourSeed fourHits = .ok (w', tp') := by
  obtain ⟨e, s1, s2, -, -, s5, -⟩ := C94_measurement (pos := scaled diskHit.pos)
    (prec := [1 / ((fin 1 * unit_mm) * (fin 1 * unit_mm)), 1 / ((fin 2 * unit_mm) * (fin 2 * unit_mm))]) (id := 5) (sc := false)
    (U := ![1, 0, 0]) (V := ![0, 1, 0]) (four_crossing (scaled diskHit.pos)) rfl rfl (by
      have : 0 < Real.sin (Real.arctan 1) := by
        rw [Real.arctan_one]; exact Real.sin_pos_of_pos_of_lt_pi (by linarith [Real.pi_pos]) (by linarith [Real.pi_pos])
      have e : Spec.dot (Spec.cross ![1, 0, 0] ![0, 1, 0]) (dirOf 1 (-1)) = Real.sin (Real.arctan 1) := by
        simp [Spec.dot, Spec.cross, dirOf]
      rw [e]
      exact this.ne')
  have hl : prefitLoop fourHits.length 0 = [0, 1, 2, 3] := by
    show prefitLoop 4 0 = _
    have hs : prefitStep 4 = 1 := by simp [prefitStep]
    have key : ∀ k, k < 4 → prefitLoop 4 k = k :: prefitLoop 4 (k + 1) := by
      intro k hk
      rw [prefitLoop, dif_pos hk]
      simp only [hs]
    rw [key 0 (by omega), key 1 (by omega), key 2 (by omega), key 3 (by omega), prefitLoop, dif_neg (by omega)]
  have h1 : prefitAdd (fourSetup gbl sortI sortE fl) fourHits (make fourSeed) (prefitLoop fourHits.length 0) =
      .ok ⟨fourSeed, [Element.start (fin 0) fourSeed 0, e], [], pionMass⟩ := by
    have hd : disk.id = 0 := rfl
    rw [hl]
    simp only [prefitAdd, hitAt, fourHits, List.getElem?_cons_zero, List.getElem?_cons_succ, Out.ok_bind, fourSetup, List.reverse_cons,
      List.reverse_nil, List.nil_append, List.find?_cons, List.find?_nil, hd, diskHit]
    simp only [show decide ((0 : ℤ) = 1) = false by simp, decide_true, show decide ((0 : ℤ) = 2) = false by simp,
      show decide ((0 : ℤ) = 3) = false by simp, getHitInfo, resolution, Out.ok_bind, Out.pure_eq, Bool.false_eq_true, if_false]
    simp only [diskHit] at s1
    rw [s1, four_start]
    rfl
  obtain ⟨t', ht'⟩ := C50_defined_partial env hE (⟨fourSeed, [Element.start (fin 0) fourSeed 0, e], [], pionMass⟩ : Traj) (by simp)
    (by
      intro a ha
      simp only [List.mem_cons, List.not_mem_nil, or_false] at ha
      rcases ha with rfl | rfl
      · exact ⟨0, rfl⟩
      · exact ⟨1 + 0, by rw [s2.arc]; simp [Element.start]⟩)
    (by
      intro a ha hs
      simp only [List.mem_cons, List.not_mem_nil, or_false] at ha
      rcases ha with rfl | rfl
      · cases hs
      · rw [s5] at hs; cases hs)
  obtain ⟨_, _, w', tp', -, -, -, -, h5, -⟩ := C106_prefit_partial (S := fourSetup gbl sortI sortE fl) hE i w four_move h1 ht'
  exact ⟨_, t', w', tp', h1, ht', rfl, h5⟩

end Example

end Verif
