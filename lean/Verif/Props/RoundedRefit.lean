import Verif.Lemmas.RoundedRefit
import Verif.Props.RefitState
import Verif.Props.RoundedFit

/-!
# C166: the program `lcio_tracks` in double precision
-/

open Classical

noncomputable section

namespace Verif

open Dbl Traj Refit

namespace Rnd

variable {A : Arith}

theorem finite_of_range {a m : Dbl} (h0 : 0 ≤ a) (h1 : a < m) : ∃ r : ℝ, a = fin r ∧ 0 ≤ r := by
  cases a with
  | fin r => exact ⟨r, rfl, by rwa [zero_eq, fin_le] at h0⟩
  | nan => cases m <;> exact absurd h1 (by simp)
  | inf b =>
    cases b
    · cases m <;> first | exact absurd h1 (by simp) | (rename_i c; cases c <;> exact absurd h1 (by simp))
    · rw [zero_eq] at h0
      exact absurd h0 (by simp)

theorem trajectory_ok {S : Setup} {tp : TP} {hits : List TrackHit} {t : Traj} (h : Rnd.trajectory A S tp hits = .ok t) :
    ∃ m L t1, fillMap (fun _ => none) (expand hits) = .ok m ∧
      Rnd.getIntersections A.fl A.lm A.at2 A.asn A.atn S.sortI (Traj.make tp) S.surfaces = (t1, .ok L) ∧
      ∃ t2, Rnd.addAll A S.env S.oneD m t1 L = .ok t2 ∧ Rnd.prepareForFitting A.fl A.lm A.at2 A.asn A.atn A.lg S.env S.sortE t2 = .ok t := by
  unfold Rnd.trajectory at h
  obtain ⟨m, h1, h⟩ := Out.bind_eq_ok.mp h
  rcases hg : Rnd.getIntersections A.fl A.lm A.at2 A.asn A.atn S.sortI (Traj.make tp) S.surfaces with ⟨t1, r⟩
  rw [hg] at h
  dsimp only at h
  obtain ⟨L, h2, h⟩ := Out.bind_eq_ok.mp h
  obtain ⟨t2, h3, h⟩ := Out.bind_eq_ok.mp h
  exact ⟨m, L, t1, h1, by rw [h2], t2, h3, h⟩

theorem serves_given {hits : List (Option TrkHit)} {oneD : Surface → Bool} {L : List Surface} {ops : List AddOp} (hs : Serves A hits oneD L ops) :
    ∀ op ∈ ops, PrecGiven op := by
  induction hs with
  | nil => intro op h; cases h
  | @hit surf l ops x pos prec hx hr hl ih =>
    intro op hop
    rw [List.mem_cons] at hop
    rcases hop with rfl | hop
    · unfold Rnd.getHitInfo at hr
      obtain ⟨⟨du, dv⟩, -, hr⟩ := Out.bind_eq_ok.mp hr
      have e := (Prod.mk.inj (Out.ok.inj hr)).2
      show prec ≠ []
      rw [← e]
      simp
    · exact ih op hop
  | scatterer hn he hl ih =>
    intro op hop
    rw [List.mem_cons] at hop
    rcases hop with rfl | hop
    · trivial
    · exact ih op hop
  | skip hn he hl ih => exact ih

theorem serves_count {hits : List (Option TrkHit)} {oneD : Surface → Bool} {L : List Surface} {ops : List AddOp}
    (hs : Serves A hits oneD L ops) (hd : hits.Pairwise fun x y => ∀ a b, x = some a → y = some b → toInt a.cellID0 ≠ toInt b.cellID0)
    (ha : ∀ x y, some x ∈ hits → some y ∈ hits → x.addr = y.addr → x = y) {h : TrkHit} (hh : some h ∈ hits) :
    (ops.filterMap hitOf).count h.addr = (L.map fun s => toInt s.id).count (toInt h.cellID0) := by
  have huniq : ∀ x, some x ∈ hits → toInt x.cellID0 = toInt h.cellID0 → x = h := by
    intro x hx e
    by_contra hne
    rw [List.pairwise_iff_getElem] at hd
    obtain ⟨i, hi, ei⟩ := List.getElem_of_mem hx
    obtain ⟨j, hj, ej⟩ := List.getElem_of_mem hh
    rcases Nat.lt_trichotomy i j with h1 | h1 | h1
    · exact hd i j hi hj h1 x h ei ej e
    · subst h1; rw [ei] at ej; injection ej with ej; exact hne ej
    · exact hd j i hj hi h1 h x ej ei e.symm
  induction hs with
  | nil => rfl
  | @hit surf l ops x pos prec hx hr hl ih =>
    obtain ⟨m1, m2⟩ := lastHit_mem hx
    simp only [List.filterMap_cons, hitOf, List.map_cons, List.count_cons, ih]
    congr 1
    by_cases hc : x = h
    · subst hc; simp [m2]
    · have n1 : ¬ x.addr = h.addr := fun e => hc (ha _ _ m1 hh e)
      have n2 : ¬ toInt surf.id = toInt h.cellID0 := fun e => hc (huniq x m1 (m2.trans e))
      simp [n1, n2]
  | @scatterer surf l ops hn he hl ih =>
    have n2 : ¬ toInt surf.id = toInt h.cellID0 := fun e => hn h hh e.symm
    simp only [List.filterMap_cons, hitOf, List.map_cons, List.count_cons, ih]
    simp [n2]
  | @skip surf l ops hn he hl ih =>
    have n2 : ¬ toInt surf.id = toInt h.cellID0 := fun e => hn h hh e.symm
    simp only [List.map_cons, List.count_cons, ih]
    simp [n2]

theorem append_started {t : Traj} (h : ∃ e ∈ t.elems, e.surface = none) (o : Out (Option Element)) : ∃ e ∈ (t.append o).1.elems, e.surface = none := by
  rcases append_cases t o with ⟨e, h1, h2⟩ | ⟨h1, -⟩
  · rw [h2]
    obtain ⟨x, hx, hn⟩ := h
    exact ⟨x, by simp [hx], hn⟩
  · rw [h1]
    exact h

theorem withStart_started {t : Traj} (h : t.elems = [] ∨ ∃ e ∈ t.elems, e.surface = none) :
    ∃ e ∈ (Rnd.withStart A.fl A.lm A.at2 t).elems, e.surface = none := by
  unfold Rnd.withStart
  by_cases h0 : t.elems = []
  · rw [if_pos h0]
    exact ⟨Element.start (Rnd.calculateSfromXY A.fl A.lm A.at2 0 0 t.ref.hp t.ref.rp) t.ref 0, List.mem_append_right _ (List.mem_singleton.2 rfl), rfl⟩
  · rw [if_neg h0]
    exact h.resolve_left h0

/-- the start element is there as soon as there are elements -/
theorem after_started (env : Env) {t : Traj} (h : t.elems = [] ∨ ∃ e ∈ t.elems, e.surface = none) : ∀ ops : List AddOp,
    (after A env t ops).elems = [] ∨ ∃ e ∈ (after A env t ops).elems, e.surface = none
  | [] => h
  | op :: ops => by
    have w := withStart_started (A := A) (after_started env h ops)
    cases op with
    | setMass m => exact after_started env h ops
    | scatterer s =>
      right
      simp only [after, Rnd.step, Rnd.addScatterer]
      cases hb : (Rnd.withStart A.fl A.lm A.at2 (after A env t ops)).elems.getLast? with
      | none => exact w
      | some back => exact append_started w _
    | measurement p pr s id sc =>
      right
      simp only [after, Rnd.step, Rnd.addMeasurement]
      cases hb : (Rnd.withStart A.fl A.lm A.at2 (after A env t ops)).elems.getLast? with
      | none => exact w
      | some back => exact append_started w _

end Rnd

open Rnd

variable {A : Arith}

/-- C166: what is fitted, in double precision.  For the surfaces for which the computed crossing of the start helix has a path length in the forward half turn, in the order
of these path lengths: the last hit with the number of the surface is added as measurement, or a scatterer if there is no such hit and there is material; then
the Jacobians are made. -/
theorem C166_calls {S : Setup} (hI : IsStdSort sortWithS S.sortI) {tp : TP} {hits : List TrackHit} {t : Traj}
    (h : Rnd.trajectory A S tp hits = .ok t) {l : List (Option TrkHit)} (hr : RawHits hits l) :
    ∃ (L : List (Dbl × Surface)) (ops : List AddOp),
      (∀ x, x ∈ L ↔ ∃ surf ∈ S.surfaces, ∃ s xx, Rnd.intersectWithSurface A.fl A.lm A.at2 A.asn A.atn surf tp.hp tp.rp 0 V3.zero 1 true = .ok ⟨true, fin s, xx⟩ ∧
        0 ≤ s ∧ fin s < Rnd.maxArc A.fl tp.hp ∧ x = (fin s, surf)) ∧
      L.Pairwise (fun a b => a.1 ≤ b.1) ∧ Rnd.Serves A l S.oneD (L.map Prod.snd) ops ∧
      Rnd.prepareForFitting A.fl A.lm A.at2 A.asn A.atn A.lg S.env S.sortE (Rnd.after A S.env { Traj.make tp with inters := L } ops.reverse) = .ok t := by
  obtain ⟨m, L, t1, h1, h2, t2, h3, h4⟩ := Rnd.trajectory_ok h
  rw [rawHits_expand hr] at h1
  obtain ⟨e1, e2, e3⟩ := intersections_ok hI h2
  obtain ⟨ops, e4, e5⟩ := Rnd.addAll_ok h1 h3
  have key : ∀ x, x ∈ L ↔ ∃ surf ∈ S.surfaces, ∃ s xx, Rnd.intersectWithSurface A.fl A.lm A.at2 A.asn A.atn surf tp.hp tp.rp 0 V3.zero 1 true = .ok ⟨true, fin s, xx⟩ ∧
        0 ≤ s ∧ fin s < Rnd.maxArc A.fl tp.hp ∧ x = (fin s, surf) := fun x => by
    rw [e3 x]
    constructor
    · rintro ⟨surf, hs, ⟨f, s, xx⟩, i1, i2, i3, i4, rfl⟩
      dsimp only at i2 i3 i4
      obtain ⟨r, rfl, r0⟩ := finite_of_range i3 i4
      subst i2
      exact ⟨surf, hs, r, xx, i1, r0, i4, rfl⟩
    · rintro ⟨surf, hs, s, xx, i1, i2, i3, rfl⟩
      exact ⟨surf, hs, _, i1, rfl, by rw [zero_eq, fin_le]; exact i2, i3, rfl⟩
  refine ⟨L, ops, key, ?_, e4, by rw [← e1, ← e5]; exact h4⟩
  refine e2.imp_of_mem fun {a b} ha hb hab => ?_
  obtain ⟨_, -, s, _, -, -, -, rfl⟩ := (key a).1 ha
  obtain ⟨_, -, s', _, -, -, -, rfl⟩ := (key b).1 hb
  simp only [fin_lt, not_lt] at hab
  rw [fin_le]
  exact hab

/-- C166 (partial): if no two hits have the same number, a hit becomes a measurement as often as there are crossed surfaces with its number.  Missing: as for
`C99_count_partial`. -/
theorem C166_count_partial {S : Setup} (hI : IsStdSort sortWithS S.sortI) {tp : TP} {hits : List TrackHit} {t : Traj}
    (h : Rnd.trajectory A S tp hits = .ok t) {l : List (Option TrkHit)} (hr : RawHits hits l)
    (hd : l.Pairwise fun x y => ∀ a b, x = some a → y = some b → toInt a.cellID0 ≠ toInt b.cellID0)
    (ha : ∀ x y, some x ∈ l → some y ∈ l → x.addr = y.addr → x = y) :
    ∃ (L : List (Dbl × Surface)) (ops : List AddOp),
      (∀ x, x ∈ L ↔ ∃ surf ∈ S.surfaces, ∃ s xx, Rnd.intersectWithSurface A.fl A.lm A.at2 A.asn A.atn surf tp.hp tp.rp 0 V3.zero 1 true = .ok ⟨true, fin s, xx⟩ ∧
        0 ≤ s ∧ fin s < Rnd.maxArc A.fl tp.hp ∧ x = (fin s, surf)) ∧
      Rnd.prepareForFitting A.fl A.lm A.at2 A.asn A.atn A.lg S.env S.sortE (Rnd.after A S.env { Traj.make tp with inters := L } ops.reverse) = .ok t ∧
      ∀ x, some x ∈ l → (ops.filterMap hitOf).count x.addr = (L.map fun y => toInt y.2.id).count (toInt x.cellID0) := by
  obtain ⟨L, ops, h1, -, h2, h3⟩ := C166_calls hI h hr
  refine ⟨L, ops, h1, h3, fun x hx => ?_⟩
  rw [Rnd.serves_count h2 hd ha hx, List.map_map]
  rfl

/-- C166: the elements of the trajectory are in the order of their path lengths and have Jacobians, so that the fit gets one point for each of them, with a
measurement or a scatterer where the element has one. -/
theorem C166_points {S : Setup} (hI : IsStdSort sortWithS S.sortI) (hE : IsStdSort compareElements S.sortE) {tp : TP} {hits : List TrackHit} {t : Traj}
    (h : Rnd.trajectory A S tp hits = .ok t) :
    t.elems ≠ [] ∧ t.elems.Pairwise (fun a b => ¬ b.arc < a.arc) ∧
      ∃ ps, Rnd.gblPoints A.fl t.elems = .ok ps ∧ ps.map (fun p => some p.jac) = t.elems.map Element.jac ∧
        ps.map (fun p => p.meas.isSome) = t.elems.map Element.measurement ∧ ps.map (fun p => p.scat.isSome) = t.elems.map Element.scatterer := by
  obtain ⟨L, ops, -, -, h2, h3⟩ := C166_calls hI h (rawHits_exists _)
  obtain ⟨q1, q2, q3, q4⟩ := Rnd.prepare_ok hE h3
  have k := (after_known (A := A) (env := S.env) (tp := tp) (t := { Traj.make tp with inters := L }) rfl (by simp [Traj.make]) (ops := ops.reverse)
    (fun op hop => serves_given h2 op (List.mem_reverse.1 hop))).2
  refine ⟨q4, q2, Rnd.gblPoints_ok fun e he => ⟨?_, q3 e he⟩⟩
  obtain ⟨x, hx, ex⟩ := List.mem_map.1 (q1.subset (List.mem_map_of_mem he))
  exact (known_noJac ex.symm (k x hx)).1

/-- C166: if the elements with surfaces have larger path lengths than the start element, this is the first one, and it is the start helix -/
theorem C166_first {S : Setup} (hI : IsStdSort sortWithS S.sortI) (hE : IsStdSort compareElements S.sortE) {tp : TP} {hits : List TrackHit} {t : Traj}
    (h : Rnd.trajectory A S tp hits = .ok t) (hpos : ∀ e ∈ t.elems, e.surface = none → ∀ x ∈ t.elems, x.surface ≠ none → e.arc < x.arc) :
    ∃ e, t.elems[0]? = some e ∧ e.tp = tp ∧ e.surface = none := by
  obtain ⟨L, ops, -, -, h2, h3⟩ := C166_calls hI h (rawHits_exists _)
  obtain ⟨q1, q2, q3, q4⟩ := Rnd.prepare_ok hE h3
  have k := (after_known (A := A) (env := S.env) (tp := tp) (t := { Traj.make tp with inters := L }) rfl (by simp [Traj.make]) (ops := ops.reverse)
    (fun op hop => serves_given h2 op (List.mem_reverse.1 hop))).2
  have st := after_started (A := A) S.env (t := { Traj.make tp with inters := L }) (.inl rfl) ops.reverse
  obtain ⟨first, rest, helems⟩ := List.exists_cons_of_ne_nil q4
  obtain ⟨s, hs, hn⟩ := st.resolve_left (by
    intro h0
    rw [h0, helems] at q1
    simpa using q1.length_eq)
  have hs' : noJac s ∈ t.elems.map noJac := q1.symm.subset (List.mem_map_of_mem hs)
  obtain ⟨x, hx, ex⟩ := List.mem_map.1 hs'
  have xn : x.surface = none := by
    have := congrArg Element.surface ex
    exact Eq.trans this hn
  have fn : first.surface = none := by
    by_contra hne
    have lt := hpos x hx xn first (by rw [helems]; simp) hne
    rw [helems] at hx q2
    rcases List.mem_cons.1 hx with rfl | hx
    · exact hne xn
    · exact (List.pairwise_cons.1 q2).1 x hx lt
  obtain ⟨y, hy, ey⟩ := List.mem_map.1 (q1.subset (List.mem_map_of_mem (f := noJac) (show first ∈ t.elems by rw [helems]; simp)))
  exact ⟨first, by rw [helems]; rfl, ((known_noJac ey.symm (k y hy)).2 fn).1, fn⟩

namespace Rnd

theorem toInt_mod (n : ℤ) : toInt ((n % 2 ^ 32).toNat : ℤ) = toInt n := by
  unfold toInt
  omega

theorem refit_eq {S : Setup} (i : ℕ) (w : World) {trk : InTrack} (h3 : 3 ≤ trk.hits.length) {tp0 iTP : TP} {t : Traj} (h0 : Rnd.readLCIO A.fl trk.state = .ok tp0)
    (h1 : Rnd.seed A.fl A.lm A.at2 A.mm trk.hits = .ok iTP) (h2 : Rnd.trajectory A S iTP trk.hits = .ok t) {ps : List GblPoint}
    (hp : Rnd.gblPoints A.fl t.elems = .ok ps) {r : FitResults}
    (hf : ∀ gi : GblState, gi.chi2 = (S.gbl ps).chi2 → gi.ndf = (S.gbl ps).ndf → gi.lostWeight = (S.gbl ps).lostWeight →
      Rnd.fillContent A.fl A.lm A.atn A.tn A.mm A.mv A.sim gi (S.gbl ps) t S.env.field 0 = .ok r) :
    ∃ w', Rnd.refit A S i w trk = .ok (w', Rnd.write A trk.hits r) := by
  unfold Rnd.refit
  rw [h0, Out.ok_bind, if_neg (by omega), h1, Out.ok_bind, h2, Out.ok_bind]
  simp only [Rnd.fit, World.clear, if_true, hp, Out.ok_bind, Rnd.getResults]
  rw [hf _ rfl rfl rfl]
  simp only [Out.ok_bind, if_true]
  exact ⟨_, rfl⟩

end Rnd

/-- C166 (partial): whenever the start helix and the trajectory can be made, the track is refitted: the fit gets one point per element, and the output track has
the hits of the input, the numbers of the fit (chi2 rounded to single precision) and one state, made from the correction of the first element.  Missing: as for `C98_refitted_partial`, there are
tracks without start helix or trajectory. -/
theorem C166_refitted_partial {S : Setup} (hI : IsStdSort sortWithS S.sortI) (hE : IsStdSort compareElements S.sortE) (i : ℕ) (w : World)
    {trk : InTrack} (h3 : 3 ≤ trk.hits.length) {tp0 iTP : TP} {t : Traj} (h0 : Rnd.readLCIO A.fl trk.state = .ok tp0)
    (h1 : Rnd.seed A.fl A.lm A.at2 A.mm trk.hits = .ok iTP) (h2 : Rnd.trajectory A S iTP trk.hits = .ok t) :
    ∃ ps e J p w' o, Rnd.gblPoints A.fl t.elems = .ok ps ∧ t.elems[0]? = some e ∧
      J = Rnd.curvilinearToL3Jacobian A.fl A.lm A.atn A.tn A.mm e.tp.hp (S.env.field e.tp.rp) ∧
      p = (fun k => addD A.fl (e.tp.hp k) (A.mv J (if ((S.gbl ps).results 0).1 = 0 then ((S.gbl ps).results 0).2.1 else V5.zero) k)) ∧
      Rnd.refit A S i w trk = .ok (w', o) ∧ o.hits = trk.hits.map (fun x => x.hit.addr) ∧ o.nHits = trk.hits.length ∧
      o.chi2 = toFloat A.sl (S.gbl ps).chi2 ∧ o.ndf = toInt ((S.gbl ps).ndf) ∧
      o.states = [{ Rnd.createLCIO A.fl A.sl ⟨A.sim J ((S.gbl ps).results 0).2.2, p, e.tp.rp⟩ with ref := V3.zero, location := 1 }] := by
  obtain ⟨q1, q2, ps, q3, -⟩ := C166_points hI hE h2
  obtain ⟨e, rest, he⟩ := List.exists_cons_of_ne_nil q1
  have e0 : t.elems[0]? = some e := by rw [he]; rfl
  obtain ⟨J, hJ⟩ : ∃ J, J = Rnd.curvilinearToL3Jacobian A.fl A.lm A.atn A.tn A.mm e.tp.hp (S.env.field e.tp.rp) := ⟨_, rfl⟩
  obtain ⟨p, hp⟩ : ∃ p : V5, p = (fun k => addD A.fl (e.tp.hp k) (A.mv J (if ((S.gbl ps).results 0).1 = 0 then ((S.gbl ps).results 0).2.1 else V5.zero) k)) := ⟨_, rfl⟩
  obtain ⟨w', hw⟩ := Rnd.refit_eq i w h3 h0 h1 h2 q3 (r := ⟨true, (S.gbl ps).chi2, ((S.gbl ps).ndf % 2 ^ 32).toNat, (S.gbl ps).lostWeight,
    ⟨A.sim J ((S.gbl ps).results 0).2.2, p, e.tp.rp⟩⟩) (by
      intro gi g1 g2 g3
      unfold Rnd.fillContent
      simp only [lt_self_iff_false, if_false, Int.toNat_zero, e0, g1, g2, g3, ← hJ, hp]
      by_cases hc : ((S.gbl ps).results 0).1 = 0 <;> simp only [hc, ne_eq, not_true_eq_false, not_false_eq_true, if_true, if_false])
  refine ⟨ps, e, J, p, w', _, q3, e0, hJ, hp, hw, rfl, rfl, rfl, ?_, rfl⟩
  exact toInt_mod _

/-- C166: the output for a track, including errors, does not depend on the state of the fitter, that is on the tracks before. -/
theorem C166_independent {S : Setup} (hI : IsStdSort sortWithS S.sortI) (hE : IsStdSort compareElements S.sortE) (i i' : ℕ) (w w' : World)
    (trk : InTrack) : output (Rnd.refit A S i w trk) = output (Rnd.refit A S i' w' trk) := by
  cases h0 : Rnd.readLCIO A.fl trk.state with
  | throw m => simp only [output, Rnd.refit, h0]; rfl
  | ub m => simp only [output, Rnd.refit, h0]; rfl
  | diverge => simp only [output, Rnd.refit, h0]; rfl
  | ok tp0 =>
    by_cases h3 : trk.hits.length < 3
    · simp only [output, Rnd.refit, h0, Out.ok_bind, if_pos h3]; rfl
    · cases h1 : Rnd.seed A.fl A.lm A.at2 A.mm trk.hits with
      | throw m => simp only [output, Rnd.refit, h0, Out.ok_bind, if_neg h3, h1]; rfl
      | ub m => simp only [output, Rnd.refit, h0, Out.ok_bind, if_neg h3, h1]; rfl
      | diverge => simp only [output, Rnd.refit, h0, Out.ok_bind, if_neg h3, h1]; rfl
      | ok iTP =>
        cases h2 : Rnd.trajectory A S iTP trk.hits with
        | throw m => simp only [output, Rnd.refit, h0, Out.ok_bind, if_neg h3, h1, h2]; rfl
        | ub m => simp only [output, Rnd.refit, h0, Out.ok_bind, if_neg h3, h1, h2]; rfl
        | diverge => simp only [output, Rnd.refit, h0, Out.ok_bind, if_neg h3, h1, h2]; rfl
        | ok t =>
          obtain ⟨ps, e, J, p, w1, o, a1, a2, a3, p1, a4, a5, a6, a7, a8, a9⟩ := C166_refitted_partial hI hE i w (by omega) h0 h1 h2
          obtain ⟨ps', e', J', p', w1', o', b1, b2, b3, p2, b4, b5, b6, b7, b8, b9⟩ := C166_refitted_partial hI hE i' w' (by omega) h0 h1 h2
          obtain rfl := Out.ok.inj (a1.symm.trans b1)
          obtain rfl := Option.some.inj (a2.symm.trans b2)
          obtain rfl := a3.trans b3.symm
          obtain rfl := p1.trans p2.symm
          rw [a4, b4, outTrack_ext (a5.trans b5.symm) (a6.trans b6.symm) (a7.trans b7.symm) (a8.trans b8.symm) (a9.trans b9.symm)]
          rfl

/-- C166: a track with fewer than three hits gives an empty track -/
theorem C166_short {S : Setup} (i : ℕ) (w : World) {trk : InTrack} (h3 : trk.hits.length < 3) {tp0 : TP} (h0 : Rnd.readLCIO A.fl trk.state = .ok tp0) :
    Rnd.refit A S i w trk = .ok (w, OutTrack.empty) := by
  unfold Rnd.refit
  rw [h0, Out.ok_bind, if_pos h3]
  rfl

/-- C166: the written state is the start helix plus the correction of the fit, at the origin, within the tolerances of C156, then in the units of LCIO and in single
precision -/
theorem C166_state (h : NearestF 53 1074 A.fl) (hl : IsLibm A.lm) (ha : IsAtan A.atn) (ht : IsTan A.tn) (hm : IsProduct A.fl A.mm) (hv : IsMulVec A.fl A.mv)
    (hs : IsSimilarity A.fl A.sim) {S : Setup} (hI : IsStdSort sortWithS S.sortI) (hE : IsStdSort compareElements S.sortE) {trk : InTrack} {i : ℕ} {w w' : World} {o : OutTrack}
    (ho : Rnd.refit A S i w trk = .ok (w', o)) (h3 : 3 ≤ trk.hits.length) {om tl ph d z : ℝ} {cov : M5}
    (h1 : Rnd.seed A.fl A.lm A.at2 A.mm trk.hits = .ok ⟨cov, hpR om tl ph d z, V3.zero⟩) {t : Traj}
    (h2 : Rnd.trajectory A S ⟨cov, hpR om tl ph d z, V3.zero⟩ trk.hits = .ok t)
    (hpos : ∀ e ∈ t.elems, e.surface = none → ∀ x ∈ t.elems, x.surface ≠ none → e.arc < x.arc) {b : Spec.R3} (hb : S.env.field V3.zero = V3.of b) (hr : FitRange om tl b)
    (hp : ∀ x ∈ [om, tl, ph, d, z], |x| ≤ 2 ^ 900) :
    ∃ ps, Rnd.gblPoints A.fl t.elems = .ok ps ∧
      ∀ (c : Fin 5 → ℝ) (C : Matrix (Fin 5) (Fin 5) ℝ), (S.gbl ps).results 0 = (0, V5.re c, M5.re C) → (∀ k, |c k| ≤ 2 ^ 200) → (∀ i j, |C i j| ≤ 2 ^ 200) →
        (∀ i j, C i j = C j i) →
        ∃ (F : Matrix (Fin 5) (Fin 5) ℝ) (p' : Fin 5 → ℝ) (C' : Matrix (Fin 5) (Fin 5) ℝ),
          Verif.curvilinearToL3Jacobian (hpR om tl ph d z) (V3.of b) = M5.re F ∧
          o.states = [{ Rnd.createLCIO A.fl A.sl ⟨M5.re C', V5.re p', V3.zero⟩ with ref := V3.zero, location := 1 }] ∧
          (∀ i, |p' i - fittedParameters F ![om, tl, ph, d, z] c i| ≤
            1 / 2 ^ 53 * |fittedParameters F ![om, tl, ph, d, z] c i| + 1 / 2 ^ 37 * ∑ k, fitScale om tl b i k * |c k| + 1 / 2 ^ 1070) ∧
          ∀ i j, |C' i j - (F * C * F.transpose) i j| ≤
            1 / 2 ^ 34 * ∑ l, ∑ k, fitScale om tl b i k * |C k l| * fitScale om tl b j l + 1 / 2 ^ 800 := by
  obtain ⟨tp0, h0, -⟩ := Out.bind_eq_ok.mp (show Rnd.refit A S i w trk = _ from ho)
  obtain ⟨-, -, ps, q3, -⟩ := C166_points hI hE h2
  obtain ⟨e, e1, e2, -⟩ := C166_first hI hE h2 hpos
  refine ⟨ps, q3, fun c C hf hc hC sym => ?_⟩
  have key := fun gi : GblState => C156_results (gi := gi) (field := S.env.field) h hl ha ht hm hv hs hr hp e1 (by rw [e2]) (by rw [e2]; exact hb) hf hc hC sym
  obtain ⟨F, p', C', k1, -, k2, k3, k4⟩ := key ⟨none, none, (S.gbl ps).chi2, (S.gbl ps).ndf, (S.gbl ps).lostWeight, fun _ => none⟩
  have hfill : ∀ gi : GblState, gi.chi2 = (S.gbl ps).chi2 → gi.ndf = (S.gbl ps).ndf → gi.lostWeight = (S.gbl ps).lostWeight →
      Rnd.fillContent A.fl A.lm A.atn A.tn A.mm A.mv A.sim gi (S.gbl ps) t S.env.field 0 = .ok ⟨true, (S.gbl ps).chi2, ((S.gbl ps).ndf % 2 ^ 32).toNat, (S.gbl ps).lostWeight,
        ⟨M5.re C', V5.re p', e.tp.rp⟩⟩ := fun gi g1 g2 g3 => by
    have : Rnd.fillContent A.fl A.lm A.atn A.tn A.mm A.mv A.sim gi (S.gbl ps) t S.env.field 0 = Rnd.fillContent A.fl A.lm A.atn A.tn A.mm A.mv A.sim
        ⟨none, none, (S.gbl ps).chi2, (S.gbl ps).ndf, (S.gbl ps).lostWeight, fun _ => none⟩ (S.gbl ps) t S.env.field 0 := by
      unfold Rnd.fillContent
      rw [g1, g2, g3]
    rw [this]
    exact k2
  obtain ⟨w1, hw⟩ := Rnd.refit_eq i w h3 h0 h1 h2 q3 hfill
  rw [ho] at hw
  have ho' := (Prod.mk.inj (Out.ok.inj hw)).2
  refine ⟨F, p', C', k1, ?_, k3, k4⟩
  rw [ho', Rnd.write, e2]

/-! ## Events -/

/-- some run of the program in double precision gives this output for the track -/
def Rnd.Refitted (A : Arith) (S : Setup) (trk : InTrack) (o : OutTrack) : Prop := ∃ i w w', Rnd.refit A S i w trk = .ok (w', o)

theorem Rnd.refitted_iff {S : Setup} (hI : IsStdSort sortWithS S.sortI) (hE : IsStdSort compareElements S.sortE) (i : ℕ) (w : World)
    {trk : InTrack} {o : OutTrack} : Rnd.Refitted A S trk o ↔ ∃ w', Rnd.refit A S i w trk = .ok (w', o) := by
  constructor
  · rintro ⟨i1, w1, w1', h⟩
    rw [← output_ok, C166_independent hI hE i i1 w w1, output_ok]
    exact ⟨w1', h⟩
  · rintro ⟨w', h⟩
    exact ⟨i, w, w', h⟩

/-- C166: the output collection of an event has one track for each input track, in the same order, each of them as if it were the only one. -/
theorem C166_event {S : Setup} (hI : IsStdSort sortWithS S.sortI) (hE : IsStdSort compareElements S.sortE) (i : ℕ) (w : World)
    (trks : List InTrack) (os : List OutTrack) :
    (∃ w', Rnd.event A S i w trks = .ok (w', os)) ↔ List.Forall₂ (Rnd.Refitted A S) trks os := by
  induction trks generalizing w os with
  | nil =>
    rw [List.forall₂_nil_left_iff]
    constructor
    · rintro ⟨w', h⟩
      exact (Prod.mk.inj (Out.ok.inj h)).2.symm
    · rintro rfl
      exact ⟨w, rfl⟩
  | cons trk trks ih =>
    rw [List.forall₂_cons_left_iff]
    constructor
    · rintro ⟨w', h⟩
      rw [Rnd.event] at h
      obtain ⟨⟨w1, o⟩, h1, h⟩ := Out.bind_eq_ok.mp h
      obtain ⟨⟨w2, os'⟩, h2, h⟩ := Out.bind_eq_ok.mp h
      have h4 := (Prod.mk.inj (Out.ok.inj h)).2
      exact ⟨o, os', ⟨i, w, w1, h1⟩, (ih w1 os').1 ⟨w2, h2⟩, h4.symm⟩
    · rintro ⟨o, os', h1, h2, rfl⟩
      obtain ⟨w1, h3⟩ := (Rnd.refitted_iff hI hE i w).1 h1
      obtain ⟨w2, h4⟩ := (ih w1 os').2 h2
      refine ⟨w2, ?_⟩
      rw [Rnd.event, h3, Out.ok_bind]
      dsimp only
      rw [h4]
      rfl

/-- C166: the first 1000 events are written, in order, each of them as if it were the only one. -/
theorem C166_file {S : Setup} (hI : IsStdSort sortWithS S.sortI) (hE : IsStdSort compareElements S.sortE) (i : ℕ) (w : World)
    (evs : List (List InTrack)) (outs : List (List OutTrack)) :
    Rnd.events A S i w (-1) evs = .ok outs ↔ List.Forall₂ (List.Forall₂ (Rnd.Refitted A S)) (evs.take 1000) outs := by
  have key : ∀ (evs : List (List InTrack)) (w : World) (n : ℕ) (outs : List (List OutTrack)), n ≤ 1000 →
      (Rnd.events A S i w ((n : ℤ) - 1) evs = .ok outs ↔ List.Forall₂ (List.Forall₂ (Rnd.Refitted A S)) (evs.take (1000 - n)) outs) := by
    intro evs
    induction evs with
    | nil =>
      intro w n outs _
      rw [List.take_nil, List.forall₂_nil_left_iff, Rnd.events]
      exact ⟨fun h => (Out.ok.inj h).symm, fun h => by rw [h]⟩
    | cons ev evs ih =>
      intro w n outs hn
      rw [Rnd.events]
      dsimp only
      rcases Nat.eq_or_lt_of_le hn with h | h
      · rw [if_neg (by omega), show 1000 - n = 0 by omega, List.take_zero, List.forall₂_nil_left_iff]
        exact ⟨fun h => (Out.ok.inj h).symm, fun h => by rw [h]⟩
      · rw [if_pos (by omega), show 1000 - n = (1000 - (n + 1)) + 1 by omega, List.take_succ_cons, List.forall₂_cons_left_iff]
        have e : ((n + 1 : ℕ) : ℤ) - 1 = (n : ℤ) - 1 + 1 := by push_cast; ring
        constructor
        · intro hh
          obtain ⟨⟨w1, o⟩, h1, hh⟩ := Out.bind_eq_ok.mp hh
          obtain ⟨os, h2, hh⟩ := Out.bind_eq_ok.mp hh
          refine ⟨o, os, (C166_event hI hE i w ev o).1 ⟨w1, h1⟩, ?_, (Out.ok.inj hh).symm⟩
          rw [← ih w1 (n + 1) os (by omega), e]
          exact h2
        · rintro ⟨o, os, h1, h2, rfl⟩
          obtain ⟨w1, h3⟩ := (C166_event hI hE i w ev o).2 h1
          rw [← ih w1 (n + 1) os (by omega), e] at h2
          rw [h3, Out.ok_bind]
          dsimp only
          rw [h2]
          rfl
  have := key evs w 0 outs (by omega)
  simpa using this

end Verif
