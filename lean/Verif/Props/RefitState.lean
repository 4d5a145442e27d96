import Verif.Props.RefitExample

/-!
# C100, C103, C104: what `lcio_tracks` writes
-/

open Classical

noncomputable section

namespace Verif

open Dbl Traj Refit

namespace Refit

/-- the output for a track without the state of the fitter -/
def output (x : Out (World × OutTrack)) : Out OutTrack := do
  let p ← x
  pure p.2

/-- some run of the program gives this output for the track -/
def Refitted (S : Setup) (trk : InTrack) (o : OutTrack) : Prop := ∃ i w w', refit S i w trk = .ok (w', o)

/-- only the start element has no surface -/
theorem after_surface (env : Env) (tp : TP) (h : List AddOp) : ∀ e ∈ (after env (make tp) h).elems, e.surface = none →
    e = Element.start (calculateSfromXY 0 0 tp.hp tp.rp) tp 0 := by
  induction h with
  | nil => intro e he; cases he
  | cons op h ih =>
    have hw : ∀ e ∈ (after env (make tp) h).withStart.elems, e.surface = none →
        e = Element.start (calculateSfromXY 0 0 tp.hp tp.rp) tp 0 := by
      intro e he hs
      by_cases h0 : (after env (make tp) h).elems = []
      · unfold withStart at he
        rw [if_pos h0] at he
        simp only [addElement, h0, List.nil_append, List.mem_singleton] at he
        rw [he, after_ref]
        rfl
      · have e1 : (after env (make tp) h).withStart = after env (make tp) h := by
          unfold withStart; rw [if_neg h0]
        rw [e1] at he
        exact ih e he hs
    intro e he hs
    by_cases ha : Adds op
    · obtain ⟨back, o, -, e1, hop⟩ := step_cases env (after env (make tp) h) op ha
      rw [after, e1] at he
      rcases append_cases (after env (make tp) h).withStart o with ⟨x, hx, h1⟩ | ⟨h1, -⟩
      · rw [h1] at he
        rw [List.mem_append, List.mem_singleton] at he
        rcases he with he | rfl
        · exact hw e he hs
        · rcases hop with ⟨p, prec, surf, id, sc, rfl, ho⟩ | ⟨surf, rfl, ho⟩
          · rw [hx] at ho
            obtain ⟨hit, tp, w, proj, -, -, -, -, h5⟩ := measurement_ok ho.symm
            rw [h5] at hs
            cases hs
          · rw [hx] at ho
            obtain ⟨hit, tp, w, proj, -, -, -, -, h5⟩ := scatterer_ok ho.symm
            rw [h5] at hs
            cases hs
      · rw [h1] at he
        exact hw e he hs
    · cases op with
      | measurement => exact absurd trivial ha
      | scatterer => exact absurd trivial ha
      | setMass m => exact ih e he hs

/-- the output of a fitted track -/
theorem outTrack_ext {o o' : OutTrack} (h1 : o.hits = o'.hits) (h2 : o.nHits = o'.nHits) (h3 : o.chi2 = o'.chi2) (h4 : o.ndf = o'.ndf)
    (h5 : o.states = o'.states) : o = o' := by
  cases o; cases o'; simp_all

end Refit

/-! ## C103 -/

/-- C103: the output for a track, including errors, does not depend on the state of the fitter, that is on the tracks
before. -/
theorem C103_independent {S : Setup} (hI : IsStdSort sortWithS S.sortI) (hE : IsStdSort compareElements S.sortE) (i i' : ℕ) (w w' : World)
    (trk : InTrack) : output (refit S i w trk) = output (refit S i' w' trk) := by
  cases h0 : readLCIO trk.state with
  | throw m => simp only [output, refit, h0]; rfl
  | ub m => simp only [output, refit, h0]; rfl
  | diverge => simp only [output, refit, h0]; rfl
  | ok tp0 =>
    by_cases h3 : trk.hits.length < 3
    · simp only [output, refit, h0, Out.ok_bind, if_pos h3]; rfl
    · cases h1 : seed trk.hits with
      | throw m => simp only [output, refit, h0, Out.ok_bind, if_neg h3, h1]; rfl
      | ub m => simp only [output, refit, h0, Out.ok_bind, if_neg h3, h1]; rfl
      | diverge => simp only [output, refit, h0, Out.ok_bind, if_neg h3, h1]; rfl
      | ok iTP =>
        cases h2 : trajectory S iTP trk.hits with
        | throw m => simp only [output, refit, h0, Out.ok_bind, if_neg h3, h1, h2]; rfl
        | ub m => simp only [output, refit, h0, Out.ok_bind, if_neg h3, h1, h2]; rfl
        | diverge => simp only [output, refit, h0, Out.ok_bind, if_neg h3, h1, h2]; rfl
        | ok t =>
          obtain ⟨ps, r, w1, o, a1, a2, a3, a4, a5, a6, a7, a8⟩ := C98_refitted_partial hI hE i w (by omega) h0 h1 h2
          obtain ⟨ps', r', w1', o', b1, b2, b3, b4, b5, b6, b7, b8⟩ := C98_refitted_partial hI hE i' w' (by omega) h0 h1 h2
          rw [a1] at b1
          injection b1 with b1
          subst b1
          have hr := World.resultOf_unique a2 b2
          subst hr
          rw [a3, b3]
          have : o = o' := outTrack_ext (a4.trans b4.symm) (a5.trans b5.symm) (a6.trans b6.symm) (a7.trans b7.symm) (a8.trans b8.symm)
          rw [this]
          rfl

namespace Refit

theorem output_ok {x : Out (World × OutTrack)} {o : OutTrack} : output x = .ok o ↔ ∃ w, x = .ok (w, o) := by
  unfold output
  constructor
  · intro h
    obtain ⟨⟨w, o'⟩, h1, h2⟩ := Out.bind_eq_ok.mp h
    injection h2 with h2
    exact ⟨w, by rw [h1, ← h2]⟩
  · rintro ⟨w, rfl⟩
    rfl

theorem refitted_iff {S : Setup} (hI : IsStdSort sortWithS S.sortI) (hE : IsStdSort compareElements S.sortE) (i : ℕ) (w : World)
    {trk : InTrack} {o : OutTrack} : Refitted S trk o ↔ ∃ w', refit S i w trk = .ok (w', o) := by
  constructor
  · rintro ⟨i1, w1, w1', h⟩
    rw [← output_ok, C103_independent hI hE i i1 w w1, output_ok]
    exact ⟨w1', h⟩
  · rintro ⟨w', h⟩
    exact ⟨i, w, w', h⟩

end Refit

/-- C103: the output collection of an event has one track for each input track, in the same order, each of them as if it were
the only one. -/
theorem C103_event {S : Setup} (hI : IsStdSort sortWithS S.sortI) (hE : IsStdSort compareElements S.sortE) (i : ℕ) (w : World)
    (trks : List InTrack) (os : List OutTrack) :
    (∃ w', event S i w trks = .ok (w', os)) ↔ List.Forall₂ (Refitted S) trks os := by
  induction trks generalizing w os with
  | nil =>
    rw [List.forall₂_nil_left_iff]
    constructor
    · rintro ⟨w', h⟩
      exact (Prod.mk.inj (Out.ok.inj h)).2.symm
    · rintro rfl
      exact ⟨w, rfl⟩
  | cons trk trks ih =>
    rw [List.forall₂_cons_left_iff]
    constructor
    · rintro ⟨w', h⟩
      rw [event] at h
      obtain ⟨⟨w1, o⟩, h1, h⟩ := Out.bind_eq_ok.mp h
      obtain ⟨⟨w2, os'⟩, h2, h⟩ := Out.bind_eq_ok.mp h
      have h4 := (Prod.mk.inj (Out.ok.inj h)).2
      exact ⟨o, os', ⟨i, w, w1, h1⟩, (ih w1 os').1 ⟨w2, h2⟩, h4.symm⟩
    · rintro ⟨o, os', h1, h2, rfl⟩
      obtain ⟨w1, h3⟩ := (refitted_iff hI hE i w).1 h1
      obtain ⟨w2, h4⟩ := (ih w1 os').2 h2
      refine ⟨w2, ?_⟩
      rw [event, h3, Out.ok_bind]
      dsimp only
      rw [h4]
      rfl

/-- C103: the first 1000 events are written, in order, each of them as if it were the only one. -/
theorem C103_file {S : Setup} (hI : IsStdSort sortWithS S.sortI) (hE : IsStdSort compareElements S.sortE) (i : ℕ) (w : World)
    (evs : List (List InTrack)) (outs : List (List OutTrack)) :
    events S i w (-1) evs = .ok outs ↔ List.Forall₂ (List.Forall₂ (Refitted S)) (evs.take 1000) outs := by
  have key : ∀ (evs : List (List InTrack)) (w : World) (n : ℕ) (outs : List (List OutTrack)), n ≤ 1000 →
      (events S i w ((n : ℤ) - 1) evs = .ok outs ↔ List.Forall₂ (List.Forall₂ (Refitted S)) (evs.take (1000 - n)) outs) := by
    intro evs
    induction evs with
    | nil =>
      intro w n outs _
      rw [List.take_nil, List.forall₂_nil_left_iff, events]
      exact ⟨fun h => (Out.ok.inj h).symm, fun h => by rw [h]⟩
    | cons ev evs ih =>
      intro w n outs hn
      rw [events]
      dsimp only
      rcases Nat.eq_or_lt_of_le hn with h | h
      · rw [if_neg (by omega), show 1000 - n = 0 by omega, List.take_zero, List.forall₂_nil_left_iff]
        exact ⟨fun h => (Out.ok.inj h).symm, fun h => by rw [h]⟩
      · rw [if_pos (by omega), show 1000 - n = (1000 - (n + 1)) + 1 by omega, List.take_succ_cons, List.forall₂_cons_left_iff]
        constructor
        · intro hh
          obtain ⟨⟨w1, o⟩, h1, hh⟩ := Out.bind_eq_ok.mp hh
          obtain ⟨os, h2, hh⟩ := Out.bind_eq_ok.mp hh
          refine ⟨o, os, (C103_event hI hE i w ev o).1 ⟨w1, h1⟩, ?_, (Out.ok.inj hh).symm⟩
          rw [← ih w1 (n + 1) os (by omega)]
          rw [← h2]
          push_cast
          ring_nf
        · rintro ⟨o, os, h1, h2, rfl⟩
          obtain ⟨w1, h3⟩ := (C103_event hI hE i w ev o).2 h1
          rw [← ih w1 (n + 1) os (by omega)] at h2
          have e : ((n + 1 : ℕ) : ℤ) - 1 = (n : ℤ) - 1 + 1 := by push_cast; ring
          rw [e] at h2
          rw [h3, Out.ok_bind]
          dsimp only
          rw [h2]
          rfl
  exact key evs w 0 outs (by omega)

/-! ## C104 -/

/-- C104 is false: a track whose fit fails is written like any other one; the output does not depend on the return code. -/
theorem C104_false {S : Setup} (hI : IsStdSort sortWithS S.sortI) (hE : IsStdSort compareElements S.sortE) (i : ℕ) (w : World)
    (trk : InTrack) (code : List GblPoint → ℕ) :
    output (refit { S with gbl := fun ps => { S.gbl ps with ret := code ps } } i w trk) = output (refit S i w trk) := by
  set S' : Setup := { S with gbl := fun ps => { S.gbl ps with ret := code ps } } with hS'
  have htr : ∀ tp hits, trajectory S' tp hits = trajectory S tp hits := fun _ _ => rfl
  cases h0 : readLCIO trk.state with
  | throw m => simp only [output, refit, h0]; rfl
  | ub m => simp only [output, refit, h0]; rfl
  | diverge => simp only [output, refit, h0]; rfl
  | ok tp0 =>
    by_cases h3 : trk.hits.length < 3
    · simp only [output, refit, h0, Out.ok_bind, if_pos h3]
    · cases h1 : seed trk.hits with
      | throw m => simp only [output, refit, h0, Out.ok_bind, if_neg h3, h1]; rfl
      | ub m => simp only [output, refit, h0, Out.ok_bind, if_neg h3, h1]; rfl
      | diverge => simp only [output, refit, h0, Out.ok_bind, if_neg h3, h1]; rfl
      | ok iTP =>
        cases h2 : trajectory S iTP trk.hits with
        | throw m => simp only [output, refit, h0, Out.ok_bind, if_neg h3, h1, h2, htr]; rfl
        | ub m => simp only [output, refit, h0, Out.ok_bind, if_neg h3, h1, h2, htr]; rfl
        | diverge => simp only [output, refit, h0, Out.ok_bind, if_neg h3, h1, h2, htr]; rfl
        | ok t =>
          obtain ⟨ps, r, w1, o, a1, a2, a3, a4, a5, a6, a7, a8⟩ := C98_refitted_partial hI hE i w (by omega) h0 h1 h2
          obtain ⟨ps', r', w1', o', b1, b2, b3, b4, b5, b6, b7, b8⟩ :=
            C98_refitted_partial (S := S') hI hE i w (by omega) h0 h1 h2
          rw [a1] at b1
          injection b1 with b1
          subst b1
          have hr := World.resultOf_unique a2 (⟨b2.chi2, b2.ndf, b2.valid, b2.lost, b2.params⟩ : ResultOf (S.gbl ps) t S.env.field 0 r')
          subst hr
          rw [a3, b3]
          have : o' = o := outTrack_ext (b4.trans a4.symm) (b5.trans a5.symm) (b6.trans a6.symm) (b7.trans a7.symm) (b8.trans a8.symm)
          rw [this]
          rfl

/-- C104 (partial): a track with less than three hits is written without state, hits and results.  Missing: failed fits. -/
theorem C104_dropped_partial {S : Setup} (hI : IsStdSort sortWithS S.sortI) (hE : IsStdSort compareElements S.sortE) {trk : InTrack}
    {o : OutTrack} (h : Refitted S trk o) :
    (trk.hits.length < 3 → o = ⟨[], 0, 0, 0, []⟩) ∧ (3 ≤ trk.hits.length → o.states.length = 1) := by
  obtain ⟨i, w, w', h⟩ := h
  constructor
  · intro h3
    unfold refit at h
    obtain ⟨_, -, h⟩ := Out.bind_eq_ok.mp h
    rw [if_pos h3] at h
    exact (Prod.mk.inj (Out.ok.inj h)).2.symm
  · intro h3
    have hh := h
    unfold refit at h
    obtain ⟨tp0, h0, h⟩ := Out.bind_eq_ok.mp h
    obtain ⟨iTP, t, h1, h2⟩ := refit_ok hh (by omega)
    obtain ⟨ps, r, w1, o', -, -, a3, -, -, -, -, a8⟩ := C98_refitted_partial hI hE i w h3 h0 h1 h2
    rw [hh] at a3
    rw [(Prod.mk.inj (Out.ok.inj a3)).2, a8]
    rfl

/-! ## C100 -/

/-- the location of a state is not read -/
theorem Refit.read_location (ts : TrackState) (h : ts.ref = V3.zero) :
    readLCIO { ts with ref := V3.zero, location := 1 } = readLCIO ts := by
  cases ts
  dsimp only at h
  subst h
  rfl

/-- C100: the first element of the trajectory is the start helix at the origin, if the surfaces are crossed after the point of
closest approach. -/
theorem C100_first {S : Setup} (hI : IsStdSort sortWithS S.sortI) (hE : IsStdSort compareElements S.sortE) {hits : List TrackHit} {t : Traj}
    {cov : M5} {om tl ph d z : ℝ} (hd : om * d < 1) (b1 : -Real.pi < ph) (b2 : ph ≤ Real.pi)
    (h : trajectory S ⟨cov, hpR om tl ph d z, V3.zero⟩ hits = .ok t)
    (hpos : ∀ e ∈ t.elems, e.surface ≠ none → 0 < e.arc) :
    ∃ e, t.elems[0]? = some e ∧ e.tp = ⟨cov, hpR om tl ph d z, V3.zero⟩ ∧ e.arc = 0 := by
  obtain ⟨L, ops, t', -, -, -, hprep, rfl⟩ := C99_calls hI h (rawHits_exists _)
  obtain ⟨-, -, -, hperm, hsort, first, rest, helems, -⟩ := prepare_ok hE hprep
  have hs0 : calculateSfromXY 0 0 (hpR om tl ph d z) V3.zero = fin 0 := by
    have := C47_start_zero om tl ph d z 0 hd b1 b2
    rwa [show V3.zero = V3.re 0 0 0 by simp only [V3.zero, V3.re, zero_eq]]
  set tp : TP := ⟨cov, hpR om tl ph d z, V3.zero⟩ with htp
  have hstart := C47_start S.env tp ops.reverse (by
    intro h0
    rw [h0, helems] at hperm
    simpa using hperm.length_eq)
  change t'.elems.Pairwise _ at hsort
  refine ⟨first, by show t'.elems[0]? = _; rw [helems]; rfl, ?_⟩
  -- an element of the sorted list is an element of the unsorted one, up to the Jacobian
  have hback : ∀ e ∈ t'.elems, ∃ x ∈ (after S.env (make tp) ops.reverse).elems, noJac x = noJac e := by
    intro e he
    have : noJac e ∈ (after S.env (make tp) ops.reverse).elems.map noJac := hperm.subset (List.mem_map_of_mem he)
    obtain ⟨x, hx, e1⟩ := List.mem_map.mp this
    exact ⟨x, hx, e1⟩
  have hforth : ∃ e ∈ t'.elems, noJac e = noJac (Element.start (calculateSfromXY 0 0 tp.hp tp.rp) tp 0) := by
    have h1 : Element.start (calculateSfromXY 0 0 tp.hp tp.rp) tp 0 ∈ (after S.env (make tp) ops.reverse).elems :=
      List.mem_of_mem_head? hstart
    have : noJac (Element.start (calculateSfromXY 0 0 tp.hp tp.rp) tp 0) ∈ t'.elems.map noJac :=
      hperm.symm.subset (List.mem_map_of_mem h1)
    obtain ⟨x, hx, e1⟩ := List.mem_map.mp this
    exact ⟨x, hx, e1⟩
  have htp' : ∀ e e' : Element, noJac e = noJac e' → e.tp = e'.tp ∧ e.arc = e'.arc ∧ e.surface = e'.surface := by
    intro e e' h
    have h1 := congrArg Element.tp h
    have h2 := congrArg Element.arc h
    have h3 := congrArg Element.surface h
    exact ⟨h1, h2, h3⟩
  obtain ⟨st, hst, hst2⟩ := hforth
  obtain ⟨-, hsta, -⟩ := htp' _ _ hst2
  have hsta : st.arc = fin 0 := by rw [hsta]; exact hs0
  have hnone : first.surface = none := by
    by_contra hne
    have h1 := hpos first (by show first ∈ t'.elems; rw [helems]; simp) hne
    rw [helems] at hst hsort
    rw [List.mem_cons] at hst
    rcases hst with rfl | hst
    · rw [hsta, zero_eq, fin_lt] at h1
      exact lt_irrefl _ h1
    · have := (List.pairwise_cons.mp hsort).1 st hst
      rw [hsta, ← zero_eq] at this
      exact this h1
  obtain ⟨x, hx, hx2⟩ := hback first (by rw [helems]; simp)
  obtain ⟨g1, g2, g3⟩ := htp' _ _ hx2
  have := after_surface S.env tp ops.reverse x hx (by rw [g3, hnone])
  rw [this] at g1 g2
  exact ⟨g1.symm, by rw [← g2]; exact hs0.trans zero_eq.symm⟩

/-- C100: the written state is the fitted track: the start helix, corrected by the fit at its own reference point, which is the
origin.  Without rounding the state is read back as this track. -/
theorem C100_state {S : Setup} (hI : IsStdSort sortWithS S.sortI) (hE : IsStdSort compareElements S.sortE) {trk : InTrack}
    {o : OutTrack} (h : Refitted S trk o) (h3 : 3 ≤ trk.hits.length) {om tl ph d z : ℝ} (hd : om * d < 1) (b1 : -Real.pi < ph)
    (b2 : ph ≤ Real.pi) (hs : seed trk.hits = .ok ⟨seedCov M5.zero, hpR om tl ph d z, V3.zero⟩) {t : Traj}
    (ht : trajectory S ⟨seedCov M5.zero, hpR om tl ph d z, V3.zero⟩ trk.hits = .ok t)
    (hpos : ∀ e ∈ t.elems, e.surface ≠ none → 0 < e.arc) :
    ∃ ps err c C J tp, gblPoints t.elems = .ok ps ∧ (S.gbl ps).results 0 = (err, c, C) ∧
      J = curvilinearToL3Jacobian (hpR om tl ph d z) (S.env.field V3.zero) ∧
      tp = (⟨M5.mul (M5.mul J C) (M5.transpose J),
        V5.add (hpR om tl ph d z) (M5.mulVec J (if err = 0 then c else V5.zero)), V3.zero⟩ : TP) ∧
      o.states = [{ createLCIO S.fl tp with ref := V3.zero, location := 1 }] ∧
      (S.fl = id → ∀ (p : Fin 5 → ℝ) (v : Fin 5 → Fin 5 → ℝ), tp.hp = V5.re p → tp.cov = M5.re v → (∀ i j, v i j = v j i) →
        o.states.map readLCIO = [.ok tp]) := by
  obtain ⟨i, w, w', h⟩ := h
  have hh := h
  unfold refit at h
  obtain ⟨tp0, h0, -⟩ := Out.bind_eq_ok.mp h
  obtain ⟨ps, r, w1, o', a1, a2, a3, -, -, -, -, a8⟩ := C98_refitted_partial hI hE i w h3 h0 hs ht
  rw [hh] at a3
  have ho := (Prod.mk.inj (Out.ok.inj a3)).2
  subst ho
  obtain ⟨e, e1, e2, -⟩ := C100_first hI hE hd b1 b2 ht hpos
  obtain ⟨n, e', c1, c2, c3, J, c4, c5, c6, c7⟩ := a2.params
  have hn : n = 0 := by omega
  subst hn
  rw [e1] at c2
  injection c2 with c2
  subst c2
  rw [e2] at c3 c4 c5 c6
  dsimp only at c3 c4 c5 c6
  rcases hres : (S.gbl ps).results 0 with ⟨err, c, C⟩
  have hr : r.estParams = ⟨M5.mul (M5.mul J C) (M5.transpose J),
      V5.add (hpR om tl ph d z) (M5.mulVec J (if err = 0 then c else V5.zero)), V3.zero⟩ := by
    rw [hres] at c7
    have h1 : r.estParams.hp = V5.add (hpR om tl ph d z) (M5.mulVec J (if err = 0 then c else V5.zero)) := by
      by_cases he : err = 0
      · rw [if_pos he]; exact c5 c C (by rw [hres, he])
      · rw [if_neg he]; exact c6 err c C hres he
    rw [← c3, ← c7, ← h1]
  refine ⟨ps, err, c, C, J, r.estParams, a1, hres, c4, hr, a8, ?_⟩
  intro hfl p v hp hv hsym
  have hrp : r.estParams.rp = V3.re 0 0 0 := by rw [c3]; simp only [V3.zero, V3.re, zero_eq]
  have hx := C57_exact p v hsym 0 0 0
  have heq : r.estParams = ⟨M5.re v, V5.re p, V3.re 0 0 0⟩ := by rw [← hp, ← hv, ← hrp]
  have href : (createLCIO id ⟨M5.re v, V5.re p, V3.re 0 0 0⟩).ref = V3.zero := by
    simp only [createLCIO, V3.re, unit_mm_eq, fin_div _ (show (1 / 10 : ℝ) ≠ 0 by norm_num), narrow, V3.zero, zero_eq, id]
    norm_num
  rw [a8, hfl, heq, List.map_cons, List.map_nil, ← hx]
  generalize createLCIO id ⟨M5.re v, V5.re p, V3.re 0 0 0⟩ = ts at href
  rw [read_location ts href]

open Example in
/-- a case for C100: the four hits -/
example {gbl : Fitter} {sortI : List (Dbl × Surface) → List (Dbl × Surface)} {sortE : List Element → List Element}
    {fl : ℝ → ℝ} (hI : IsStdSort sortWithS sortI) (hE : IsStdSort compareElements sortE) (state : TrackState)
    {tp0 : TP} (h0 : readLCIO state = .ok tp0) :
    ∃ o tp, Refitted (fourSetup gbl sortI sortE fl) (fourTrack state) o ∧
      o.states = [{ createLCIO fl tp with ref := V3.zero, location := 1 }] ∧ tp.rp = V3.zero := by
  obtain ⟨t, ht, -, hpos⟩ := trajectory_four (gbl := gbl) (fl := fl) hI hE
  obtain ⟨-, -, w', o, -, -, h1, -⟩ := C98_refitted_partial (S := fourSetup gbl sortI sortE fl) hI hE 0 (World.init fun _ => none)
    (trk := fourTrack state) (by simp [fourTrack, fourHits]) h0 seed_four ht
  obtain ⟨ps, err, c, C, J, tp, -, -, -, q1, q2, -⟩ := C100_state (S := fourSetup gbl sortI sortE fl) hI hE ⟨0, (World.init fun _ => none), w', h1⟩
    (by simp [fourTrack, fourHits]) (by norm_num) (by linarith [Real.pi_pos]) Real.pi_pos.le seed_four ht hpos
  exact ⟨o, tp, ⟨0, (World.init fun _ => none), w', h1⟩, q2, by rw [q1]⟩

end Verif
