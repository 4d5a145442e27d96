import Verif.Model.RoundedEffects
import Verif.Props.MaterialEffects
import Verif.Props.RoundedRefit

/-!
# C168: the program `material_effects` in double precision
-/

open Classical

noncomputable section

namespace Verif

open Dbl Traj Refit Rnd

variable {A : Arith}

namespace Rnd.Eff

open MatEff (candidates LastWith HitMap)

/-- the precisions for resolutions `du` and `dv`: one if the second resolution is zero -/
def PrecisionOf (A : Arith) (du dv : Dbl) (p : List Dbl) : Prop :=
  (dv = fin 0 → p = [weight A du]) ∧ (dv ≠ fin 0 → p = [weight A du, weight A dv])

theorem precisionOf (du dv : Dbl) : PrecisionOf A du dv (precision A du dv) := by
  have key : Dbl.eqv dv 0 ↔ dv = fin 0 := by
    rw [zero_eq]
    cases dv <;> simp [Dbl.eqv]
  constructor
  · intro h
    unfold precision
    rw [cif_pos (key.2 h)]
  · intro h
    unfold precision
    rw [cif_neg (fun e => h (key.1 e))]

/-- the calls for a list of crossed surfaces, and the hits of the output track -/
inductive Calls (A : Arith) (l : List TrkHit) (id : ℕ) : List Surface → List AddOp → List ℕ → Prop
  | nil : Calls A l id [] [] []
  | hit {surf K ops used h du dv p} (hh : LastWith l surf.id h) (hr : Rnd.resolution A h = .ok (du, dv)) (hp : PrecisionOf A du dv p)
      (hl : Calls A l id K ops used) :
      Calls A l id (surf :: K) (.measurement ⟨mulD A.fl h.pos.x (lit A.fl 0.1), mulD A.fl h.pos.y (lit A.fl 0.1), mulD A.fl h.pos.z (lit A.fl 0.1)⟩ p surf id true :: ops)
        (h.addr :: used)
  | scatterer {surf K ops used} (hh : ∀ h ∈ l, h.cellID0 ≠ surf.id) (he : ¬ Rnd.Empty A.fl surf) (hl : Calls A l id K ops used) :
      Calls A l id (surf :: K) (.scatterer surf :: ops) used
  | skip {surf K ops used} (hh : ∀ h ∈ l, h.cellID0 ≠ surf.id) (he : Rnd.Empty A.fl surf) (hl : Calls A l id K ops used) :
      Calls A l id (surf :: K) ops used

theorem addAll_ok {env : Env} {id : ℕ} {hits : List TrackHit} {L : List (Dbl × Surface)} {t t' : Traj} {u u' : List ℕ}
    (h : addAll A env id (MatEff.fillMap (fun _ => none) hits) t u L = .ok (t', u')) :
    ∃ ops used, Calls A (candidates hits) id (L.map Prod.snd) ops used ∧ t' = after A env t ops.reverse ∧ u' = u ++ used := by
  induction L generalizing t u with
  | nil =>
    obtain ⟨h1, h2⟩ := Prod.mk.inj (Out.ok.inj h)
    exact ⟨[], [], .nil, h1.symm, by rw [← h2, List.append_nil]⟩
  | cons x L ih =>
    obtain ⟨s, surf⟩ := x
    rw [addAll] at h
    have hspec := MatEff.foldl_spec (fun _ => none) (candidates hits) surf.id
    rw [← MatEff.fillMap_eq] at hspec
    rcases hspec with ⟨x, hx, e⟩ | ⟨hn, e⟩
    · rw [e] at h
      dsimp only at h
      obtain ⟨⟨du, dv⟩, h1, h⟩ := Out.bind_eq_ok.mp h
      dsimp only at h
      obtain ⟨b, -, h⟩ := Out.bind_eq_ok.mp h
      obtain ⟨ops, used, h5, h6, h7⟩ := ih h
      refine ⟨_, _, .hit hx h1 (precisionOf du dv) h5, ?_, by rw [h7, List.append_assoc]; rfl⟩
      rw [h6, List.reverse_cons, after_append]
      rfl
    · rw [e] at h
      dsimp only at h
      by_cases hc : surf.innerMaterial.density < lit A.fl 1e-6 ∧ surf.outerMaterial.density < lit A.fl 1e-6
      · rw [cif_pos hc] at h
        obtain ⟨ops, used, h5, h6, h7⟩ := ih h
        exact ⟨_, _, .skip hn hc h5, h6, h7⟩
      · rw [cif_neg hc] at h
        obtain ⟨b, -, h⟩ := Out.bind_eq_ok.mp h
        obtain ⟨ops, used, h5, h6, h7⟩ := ih h
        refine ⟨_, _, .scatterer hn hc h5, ?_, h7⟩
        rw [h6, List.reverse_cons, after_append]

theorem calls_count {l : List TrkHit} {id : ℕ} {K : List Surface} {ops : List AddOp} {used : List ℕ} (hs : Calls A l id K ops used)
    (hd : (l.map TrkHit.cellID0).Nodup) (ha : ∀ x ∈ l, ∀ y ∈ l, x.addr = y.addr → x = y) {h : TrkHit} (hh : h ∈ l) :
    used.count h.addr = (K.map Surface.id).count h.cellID0 := by
  have huniq : ∀ x ∈ l, x.cellID0 = h.cellID0 → x = h := fun x hx e => List.inj_on_of_nodup_map hd hx hh e
  induction hs with
  | nil => rfl
  | @hit surf K ops used x du dv p hx hr hp hl ih =>
    obtain ⟨a, b, e1, e2, -⟩ := hx
    have hm : x ∈ l := by rw [e1]; simp
    simp only [List.map_cons, List.count_cons, ih]
    congr 1
    by_cases hc : x = h
    · subst hc; simp [e2]
    · have n1 : ¬ x.addr = h.addr := fun e => hc (ha _ hm _ hh e)
      have n2 : ¬ surf.id = h.cellID0 := fun e => hc (huniq x hm (e2.trans e))
      simp [n1, n2]
  | @scatterer surf K ops used hn he hl ih =>
    have n2 : ¬ surf.id = h.cellID0 := fun e => hn h hh e.symm
    simp only [List.map_cons, List.count_cons, ih]
    simp [n2]
  | @skip surf K ops used hn he hl ih =>
    have n2 : ¬ surf.id = h.cellID0 := fun e => hn h hh e.symm
    simp only [List.map_cons, List.count_cons, ih]
    simp [n2]

theorem calls_given {l : List TrkHit} {id : ℕ} {K : List Surface} {ops : List AddOp} {used : List ℕ} (hs : Calls A l id K ops used) :
    ∀ op ∈ ops, PrecGiven op := by
  induction hs with
  | nil => intro op h; cases h
  | @hit surf K ops used x du dv p hx hr hp hl ih =>
    intro op hop
    rw [List.mem_cons] at hop
    rcases hop with rfl | hop
    · by_cases h0 : dv = fin 0
      · simp [PrecGiven, hp.1 h0]
      · simp [PrecGiven, hp.2 h0]
    · exact ih op hop
  | scatterer hn he hl ih =>
    intro op hop
    rw [List.mem_cons] at hop
    rcases hop with rfl | hop
    · trivial
    · exact ih op hop
  | skip hn he hl ih => exact ih

theorem trajectory_ok {S : Setup} {id : ℕ} {m : HitMap} {tp : TP} {t : Traj} {used : List ℕ} (h : trajectory A S id m tp = .ok (t, used)) :
    ∃ L t1, getIntersections A.fl A.lm A.at2 A.asn A.atn S.sortI (Traj.make tp) S.surfaces = (t1, .ok L) ∧
      ∃ t2, addAll A S.env id m t1 [] L = .ok (t2, used) ∧ prepareForFitting A.fl A.lm A.at2 A.asn A.atn A.lg S.env S.sortE t2 = .ok t := by
  unfold trajectory at h
  rcases hg : getIntersections A.fl A.lm A.at2 A.asn A.atn S.sortI (Traj.make tp) S.surfaces with ⟨t1, r⟩
  rw [hg] at h
  dsimp only at h
  obtain ⟨L, h2, h⟩ := Out.bind_eq_ok.mp h
  obtain ⟨⟨t2, u⟩, h3, h⟩ := Out.bind_eq_ok.mp h
  obtain ⟨t3, h4, h⟩ := Out.bind_eq_ok.mp h
  obtain ⟨rfl, rfl⟩ := Prod.mk.inj (Out.ok.inj h)
  exact ⟨L, t1, by rw [h2], t2, h3, h4⟩

end Rnd.Eff

/-- C168: what is fitted, in double precision.  For the surfaces for which the computed crossing of the track of the file has a path length in the forward half turn, in
the order of these path lengths: the last hit with the number of the surface is added as measurement and listed in the output track, or a scatterer is added if there is
no such hit and there is material; then the Jacobians are made. -/
theorem C168_calls {S : Setup} (hI : IsStdSort sortWithS S.sortI) {id : ℕ} {tp : TP} {hits : List TrackHit} {t : Traj} {used : List ℕ}
    (h : Rnd.Eff.trajectory A S id (MatEff.fillMap (fun _ => none) hits) tp = .ok (t, used)) :
    ∃ (L : List (Dbl × Surface)) (ops : List AddOp),
      (∀ x, x ∈ L ↔ ∃ surf ∈ S.surfaces, ∃ s xx, Rnd.intersectWithSurface A.fl A.lm A.at2 A.asn A.atn surf tp.hp tp.rp 0 V3.zero 1 true = .ok ⟨true, fin s, xx⟩ ∧
        0 ≤ s ∧ fin s < Rnd.maxArc A.fl tp.hp ∧ x = (fin s, surf)) ∧
      L.Pairwise (fun a b => a.1 ≤ b.1) ∧ Rnd.Eff.Calls A (MatEff.candidates hits) id (L.map Prod.snd) ops used ∧
      Rnd.prepareForFitting A.fl A.lm A.at2 A.asn A.atn A.lg S.env S.sortE (Rnd.after A S.env { Traj.make tp with inters := L } ops.reverse) = .ok t := by
  obtain ⟨L, t1, h2, t2, h3, h4⟩ := Rnd.Eff.trajectory_ok h
  obtain ⟨e1, e2, e3⟩ := intersections_ok hI h2
  obtain ⟨ops, used', e4, e5, e6⟩ := Rnd.Eff.addAll_ok h3
  have key : ∀ x, x ∈ L ↔ ∃ surf ∈ S.surfaces, ∃ s xx, Rnd.intersectWithSurface A.fl A.lm A.at2 A.asn A.atn surf tp.hp tp.rp 0 V3.zero 1 true = .ok ⟨true, fin s, xx⟩ ∧
        0 ≤ s ∧ fin s < Rnd.maxArc A.fl tp.hp ∧ x = (fin s, surf) := fun x => by
    rw [e3 x]
    constructor
    · rintro ⟨surf, hs, ⟨f, s, xx⟩, i1, i2, i3, i4, rfl⟩
      dsimp only at i2 i3 i4
      obtain ⟨r, rfl, r0⟩ := finite_of_range i3 i4
      subst i2
      exact ⟨surf, hs, r, xx, i1, r0, i4, rfl⟩
    · rintro ⟨surf, hs, s, xx, i1, i2, i3, rfl⟩
      exact ⟨surf, hs, _, i1, rfl, by rw [zero_eq, fin_le]; exact i2, i3, rfl⟩
  refine ⟨L, ops, key, ?_, by rw [e6, List.nil_append]; exact e4, by rw [← e1, ← e5]; exact h4⟩
  refine e2.imp_of_mem fun {a b} ha hb hab => ?_
  obtain ⟨_, -, s, _, -, -, -, rfl⟩ := (key a).1 ha
  obtain ⟨_, -, s', _, -, -, -, rfl⟩ := (key b).1 hb
  simp only [fin_lt, not_lt] at hab
  rw [fin_le]
  exact hab

/-- C168 (partial): if no two usable hits have the same number, a hit is listed as often as there are crossed surfaces with its number.  Missing: as for
`C107_count_partial`. -/
theorem C168_count_partial {S : Setup} (hI : IsStdSort sortWithS S.sortI) {id : ℕ} {tp : TP} {hits : List TrackHit} {t : Traj} {used : List ℕ}
    (h : Rnd.Eff.trajectory A S id (MatEff.fillMap (fun _ => none) hits) tp = .ok (t, used)) (hd : ((MatEff.candidates hits).map TrkHit.cellID0).Nodup)
    (ha : ∀ x ∈ MatEff.candidates hits, ∀ y ∈ MatEff.candidates hits, x.addr = y.addr → x = y) :
    ∃ L : List (Dbl × Surface),
      (∀ x, x ∈ L ↔ ∃ surf ∈ S.surfaces, ∃ s xx, Rnd.intersectWithSurface A.fl A.lm A.at2 A.asn A.atn surf tp.hp tp.rp 0 V3.zero 1 true = .ok ⟨true, fin s, xx⟩ ∧
        0 ≤ s ∧ fin s < Rnd.maxArc A.fl tp.hp ∧ x = (fin s, surf)) ∧
      ∀ x ∈ MatEff.candidates hits, used.count x.addr = (L.map fun y => y.2.id).count x.cellID0 := by
  obtain ⟨L, ops, h1, -, h2, h3⟩ := C168_calls hI h
  refine ⟨L, h1, fun x hx => ?_⟩
  rw [Rnd.Eff.calls_count h2 hd ha hx, List.map_map]
  rfl

/-- C168: the elements of the trajectory are in the order of their path lengths and have Jacobians, so that the fit gets one point for each of them, with a
measurement or a scatterer where the element has one.  If the elements with surfaces have larger path lengths than the start element, this is the first one, and it is
the track of the file. -/
theorem C168_points {S : Setup} (hI : IsStdSort sortWithS S.sortI) (hE : IsStdSort compareElements S.sortE) {id : ℕ} {tp : TP} {hits : List TrackHit} {t : Traj}
    {used : List ℕ} (h : Rnd.Eff.trajectory A S id (MatEff.fillMap (fun _ => none) hits) tp = .ok (t, used)) :
    t.elems ≠ [] ∧ t.elems.Pairwise (fun a b => ¬ b.arc < a.arc) ∧
      (∃ ps, Rnd.gblPoints A.fl t.elems = .ok ps ∧ ps.map (fun p => some p.jac) = t.elems.map Element.jac ∧
        ps.map (fun p => p.meas.isSome) = t.elems.map Element.measurement ∧ ps.map (fun p => p.scat.isSome) = t.elems.map Element.scatterer) ∧
      ((∀ e ∈ t.elems, e.surface = none → ∀ x ∈ t.elems, x.surface ≠ none → e.arc < x.arc) →
        ∃ e, t.elems[0]? = some e ∧ e.tp = tp ∧ e.surface = none) := by
  obtain ⟨L, ops, -, -, h2, h3⟩ := C168_calls hI h
  obtain ⟨q1, q2, q3, q4⟩ := Rnd.prepare_ok hE h3
  have k := (after_known (A := A) (env := S.env) (tp := tp) (t := { Traj.make tp with inters := L }) rfl (by simp [Traj.make]) (ops := ops.reverse)
    (fun op hop => Rnd.Eff.calls_given h2 op (List.mem_reverse.1 hop))).2
  refine ⟨q4, q2, Rnd.gblPoints_ok fun e he => ⟨?_, q3 e he⟩, fun hpos => ?_⟩
  · obtain ⟨x, hx, ex⟩ := List.mem_map.1 (q1.subset (List.mem_map_of_mem he))
    exact (known_noJac ex.symm (k x hx)).1
  · have st := after_started (A := A) S.env (t := { Traj.make tp with inters := L }) (.inl rfl) ops.reverse
    obtain ⟨first, rest, helems⟩ := List.exists_cons_of_ne_nil q4
    obtain ⟨s, hs, hn⟩ := st.resolve_left (by
      intro h0
      rw [h0, helems] at q1
      simpa using q1.length_eq)
    have hs' : noJac s ∈ t.elems.map noJac := q1.symm.subset (List.mem_map_of_mem hs)
    obtain ⟨x, hx, ex⟩ := List.mem_map.1 hs'
    have xn : x.surface = none := by
      have := congrArg Element.surface ex
      exact Eq.trans this hn
    have fn : first.surface = none := by
      by_contra hne
      have lt := hpos x hx xn first (by rw [helems]; simp) hne
      rw [helems] at hx q2
      rcases List.mem_cons.1 hx with rfl | hx
      · exact hne xn
      · exact (List.pairwise_cons.1 q2).1 x hx lt
    obtain ⟨y, hy, ey⟩ := List.mem_map.1 (q1.subset (List.mem_map_of_mem (f := noJac) (show first ∈ t.elems by rw [helems]; simp)))
    exact ⟨first, by rw [helems]; rfl, ((known_noJac ey.symm (k y hy)).2 fn).1, fn⟩

namespace Rnd.Eff

theorem refit_eq {S : Setup} (i id : ℕ) (w : World) {trk : InTrack} {tp : TP} {t : Traj} {used : List ℕ} (h0 : Rnd.readLCIO A.fl trk.state = .ok tp)
    (h2 : trajectory A S id (MatEff.fillMap (fun _ => none) trk.hits) tp = .ok (t, used)) {ps : List GblPoint}
    (hp : Rnd.gblPoints A.fl t.elems = .ok ps) {r : FitResults}
    (hf : ∀ gi : GblState, gi.chi2 = (S.gbl ps).chi2 → gi.ndf = (S.gbl ps).ndf → gi.lostWeight = (S.gbl ps).lostWeight →
      Rnd.fillContent A.fl A.lm A.atn A.tn A.mm A.mv A.sim gi (S.gbl ps) t S.env.field 0 = .ok r) :
    ∃ w', refit A S i id w (fun _ => none) trk = .ok (w', write A used r) := by
  unfold refit
  rw [h0, Out.ok_bind, h2, Out.ok_bind]
  simp only [Rnd.fit, World.clear, if_true, hp, Out.ok_bind, Rnd.getResults]
  rw [hf _ rfl rfl rfl]
  simp only [Out.ok_bind, if_true]
  exact ⟨_, rfl⟩

/-- some run of the program gives this output for the track of an event -/
def Refitted (A : Arith) (S : Setup) (id : ℕ) (trk : InTrack) (o : OutTrack) : Prop := ∃ i w w', refit A S i id w (fun _ => none) trk = .ok (w', o)

end Rnd.Eff

/-- C168: whenever the state of the file can be read and the trajectory can be made, the track is refitted: the fit gets one point per element, and the output track
has the used hits, the numbers of the fit (chi2 rounded to single precision) and one state, made from the correction of the first element. -/
theorem C168_refitted {S : Setup} (hI : IsStdSort sortWithS S.sortI) (hE : IsStdSort compareElements S.sortE) (i id : ℕ) (w : World)
    {trk : InTrack} {tp : TP} {t : Traj} {used : List ℕ} (h0 : Rnd.readLCIO A.fl trk.state = .ok tp)
    (h2 : Rnd.Eff.trajectory A S id (MatEff.fillMap (fun _ => none) trk.hits) tp = .ok (t, used)) :
    ∃ ps e J p w' o, Rnd.gblPoints A.fl t.elems = .ok ps ∧ t.elems[0]? = some e ∧
      J = Rnd.curvilinearToL3Jacobian A.fl A.lm A.atn A.tn A.mm e.tp.hp (S.env.field e.tp.rp) ∧
      p = (fun k => addD A.fl (e.tp.hp k) (A.mv J (if ((S.gbl ps).results 0).1 = 0 then ((S.gbl ps).results 0).2.1 else V5.zero) k)) ∧
      Rnd.Eff.refit A S i id w (fun _ => none) trk = .ok (w', o) ∧ o.hits = used ∧ o.nHits = used.length ∧
      o.chi2 = toFloat A.sl (S.gbl ps).chi2 ∧ o.ndf = toInt ((S.gbl ps).ndf) ∧
      o.states = [{ Rnd.createLCIO A.fl A.sl ⟨A.sim J ((S.gbl ps).results 0).2.2, p, e.tp.rp⟩ with ref := V3.zero, location := 1 }] := by
  obtain ⟨q1, q2, ⟨ps, q3, -⟩, -⟩ := C168_points hI hE h2
  obtain ⟨e, rest, he⟩ := List.exists_cons_of_ne_nil q1
  have e0 : t.elems[0]? = some e := by rw [he]; rfl
  obtain ⟨J, hJ⟩ : ∃ J, J = Rnd.curvilinearToL3Jacobian A.fl A.lm A.atn A.tn A.mm e.tp.hp (S.env.field e.tp.rp) := ⟨_, rfl⟩
  obtain ⟨p, hp⟩ : ∃ p : V5, p = (fun k => addD A.fl (e.tp.hp k) (A.mv J (if ((S.gbl ps).results 0).1 = 0 then ((S.gbl ps).results 0).2.1 else V5.zero) k)) := ⟨_, rfl⟩
  obtain ⟨w', hw⟩ := Rnd.Eff.refit_eq i id w h0 h2 q3 (r := ⟨true, (S.gbl ps).chi2, ((S.gbl ps).ndf % 2 ^ 32).toNat, (S.gbl ps).lostWeight,
    ⟨A.sim J ((S.gbl ps).results 0).2.2, p, e.tp.rp⟩⟩) (by
      intro gi g1 g2 g3
      unfold Rnd.fillContent
      simp only [lt_self_iff_false, if_false, Int.toNat_zero, e0, g1, g2, g3, ← hJ, hp]
      by_cases hc : ((S.gbl ps).results 0).1 = 0 <;> simp only [hc, ne_eq, not_true_eq_false, not_false_eq_true, if_true, if_false])
  refine ⟨ps, e, J, p, w', _, q3, e0, hJ, hp, hw, rfl, rfl, rfl, ?_, rfl⟩
  exact toInt_mod _

/-- C168 (partial): the written parameters are those of the track of the file plus the correction of the fit, within the tolerances of C156, then in the units of LCIO
and in single precision.  Missing: the reference point (`C168_reference_false`). -/
theorem C168_state_partial (h : NearestF 53 1074 A.fl) (hl : IsLibm A.lm) (ha : IsAtan A.atn) (ht : IsTan A.tn) (hm : IsProduct A.fl A.mm) (hv : IsMulVec A.fl A.mv)
    (hs : IsSimilarity A.fl A.sim) {S : Setup} (hI : IsStdSort sortWithS S.sortI) (hE : IsStdSort compareElements S.sortE) {trk : InTrack} {i id : ℕ} {w w' : World}
    {o : OutTrack} (ho : Rnd.Eff.refit A S i id w (fun _ => none) trk = .ok (w', o)) {om tl ph d z : ℝ} {cov : M5} {rp : V3}
    (h1 : Rnd.readLCIO A.fl trk.state = .ok ⟨cov, hpR om tl ph d z, rp⟩) {t : Traj} {used : List ℕ}
    (h2 : Rnd.Eff.trajectory A S id (MatEff.fillMap (fun _ => none) trk.hits) ⟨cov, hpR om tl ph d z, rp⟩ = .ok (t, used))
    (hpos : ∀ e ∈ t.elems, e.surface = none → ∀ x ∈ t.elems, x.surface ≠ none → e.arc < x.arc) {b : Spec.R3} (hb : S.env.field rp = V3.of b) (hr : FitRange om tl b)
    (hp : ∀ x ∈ [om, tl, ph, d, z], |x| ≤ 2 ^ 900) :
    ∃ ps, Rnd.gblPoints A.fl t.elems = .ok ps ∧
      ∀ (c : Fin 5 → ℝ) (C : Matrix (Fin 5) (Fin 5) ℝ), (S.gbl ps).results 0 = (0, V5.re c, M5.re C) → (∀ k, |c k| ≤ 2 ^ 200) → (∀ i j, |C i j| ≤ 2 ^ 200) →
        (∀ i j, C i j = C j i) →
        ∃ (F : Matrix (Fin 5) (Fin 5) ℝ) (p' : Fin 5 → ℝ) (C' : Matrix (Fin 5) (Fin 5) ℝ),
          Verif.curvilinearToL3Jacobian (hpR om tl ph d z) (V3.of b) = M5.re F ∧
          o.states = [{ Rnd.createLCIO A.fl A.sl ⟨M5.re C', V5.re p', rp⟩ with ref := V3.zero, location := 1 }] ∧
          (∀ i, |p' i - fittedParameters F ![om, tl, ph, d, z] c i| ≤
            1 / 2 ^ 53 * |fittedParameters F ![om, tl, ph, d, z] c i| + 1 / 2 ^ 37 * ∑ k, fitScale om tl b i k * |c k| + 1 / 2 ^ 1070) ∧
          ∀ i j, |C' i j - (F * C * F.transpose) i j| ≤
            1 / 2 ^ 34 * ∑ l, ∑ k, fitScale om tl b i k * |C k l| * fitScale om tl b j l + 1 / 2 ^ 800 := by
  obtain ⟨-, -, ⟨ps, q3, -⟩, qf⟩ := C168_points hI hE h2
  obtain ⟨e, e1, e2, -⟩ := qf hpos
  refine ⟨ps, q3, fun c C hf hc hC sym => ?_⟩
  have key := fun gi : GblState => C156_results (gi := gi) (field := S.env.field) h hl ha ht hm hv hs hr hp e1 (by rw [e2]) (by rw [e2]; exact hb) hf hc hC sym
  obtain ⟨F, p', C', k1, -, k2, k3, k4⟩ := key ⟨none, none, (S.gbl ps).chi2, (S.gbl ps).ndf, (S.gbl ps).lostWeight, fun _ => none⟩
  have hfill : ∀ gi : GblState, gi.chi2 = (S.gbl ps).chi2 → gi.ndf = (S.gbl ps).ndf → gi.lostWeight = (S.gbl ps).lostWeight →
      Rnd.fillContent A.fl A.lm A.atn A.tn A.mm A.mv A.sim gi (S.gbl ps) t S.env.field 0 = .ok ⟨true, (S.gbl ps).chi2, ((S.gbl ps).ndf % 2 ^ 32).toNat, (S.gbl ps).lostWeight,
        ⟨M5.re C', V5.re p', e.tp.rp⟩⟩ := fun gi g1 g2 g3 => by
    have : Rnd.fillContent A.fl A.lm A.atn A.tn A.mm A.mv A.sim gi (S.gbl ps) t S.env.field 0 = Rnd.fillContent A.fl A.lm A.atn A.tn A.mm A.mv A.sim
        ⟨none, none, (S.gbl ps).chi2, (S.gbl ps).ndf, (S.gbl ps).lostWeight, fun _ => none⟩ (S.gbl ps) t S.env.field 0 := by
      unfold Rnd.fillContent
      rw [g1, g2, g3]
    rw [this]
    exact k2
  obtain ⟨w1, hw⟩ := Rnd.Eff.refit_eq i id w h1 h2 q3 hfill
  rw [ho] at hw
  have ho' := (Prod.mk.inj (Out.ok.inj hw)).2
  refine ⟨F, p', C', k1, ?_, k3, k4⟩
  rw [ho', Rnd.Eff.write, e2]

/-- C168 is false: the reference point is replaced by the origin.  Two results that differ by a displacement of one centimetre along x, so that their tracks are one
centimetre apart everywhere, are written as the same track; whatever a reader makes of it is wrong by half a centimetre for one of them. -/
theorem C168_reference_false {om tl ph d z : ℝ} (hom : om ≠ 0) (cov : M5) (used : List ℕ) (valid : Bool) (chi2 : Dbl) (ndf : ℕ) (lost : Dbl) :
    ∃ r r' : FitResults, ∃ x y w x' y' w' : ℝ → ℝ, r.estParams = ⟨cov, hpR om tl ph d z, V3.re 0 0 0⟩ ∧ r'.estParams = ⟨cov, hpR om tl ph d z, V3.re 1 0 0⟩ ∧
      Spec.IsTrack om tl ph (0 - d * Real.sin ph) (0 + d * Real.cos ph) (0 + z) x y w ∧
      Spec.IsTrack om tl ph (1 - d * Real.sin ph) (0 + d * Real.cos ph) (0 + z) x' y' w' ∧
      Rnd.Eff.write A used r = Rnd.Eff.write A used r' ∧
      ∀ (read : OutTrack → ℝ → ℝ) (s : ℝ), 1 / 2 ≤ |read (Rnd.Eff.write A used r) s - x s| ∨ 1 / 2 ≤ |read (Rnd.Eff.write A used r') s - x' s| := by
  refine ⟨⟨valid, chi2, ndf, lost, ⟨cov, hpR om tl ph d z, V3.re 0 0 0⟩⟩, ⟨valid, chi2, ndf, lost, ⟨cov, hpR om tl ph d z, V3.re 1 0 0⟩⟩, _, _, _, _, _, _, rfl, rfl,
    isTrack_r hom, isTrack_r hom, rfl, fun read s => ?_⟩
  have e : Rnd.Eff.write A used ⟨valid, chi2, ndf, lost, ⟨cov, hpR om tl ph d z, V3.re 1 0 0⟩⟩ =
      Rnd.Eff.write A used ⟨valid, chi2, ndf, lost, ⟨cov, hpR om tl ph d z, V3.re 0 0 0⟩⟩ := rfl
  rw [e]
  have q : rX om ph d 1 s = rX om ph d 0 s + 1 := by
    unfold rX
    ring
  rw [q]
  generalize read _ s = v
  generalize rX om ph d 0 s = u
  by_contra hc
  push Not at hc
  have c1 := abs_lt.1 hc.1
  have c2 := abs_lt.1 hc.2
  linarith [c1.2, c2.1]

/-- C168: the output for the track of an event, including errors, does not depend on the state of the fitter, that is on the events before. -/
theorem C168_independent {S : Setup} (hI : IsStdSort sortWithS S.sortI) (hE : IsStdSort compareElements S.sortE) (i i' id : ℕ) (w w' : World)
    (trk : InTrack) : output (Rnd.Eff.refit A S i id w (fun _ => none) trk) = output (Rnd.Eff.refit A S i' id w' (fun _ => none) trk) := by
  cases h0 : Rnd.readLCIO A.fl trk.state with
  | throw m => simp only [output, Rnd.Eff.refit, h0]; rfl
  | ub m => simp only [output, Rnd.Eff.refit, h0]; rfl
  | diverge => simp only [output, Rnd.Eff.refit, h0]; rfl
  | ok tp =>
    cases h2 : Rnd.Eff.trajectory A S id (MatEff.fillMap (fun _ => none) trk.hits) tp with
    | throw m => simp only [output, Rnd.Eff.refit, h0, Out.ok_bind, h2]; rfl
    | ub m => simp only [output, Rnd.Eff.refit, h0, Out.ok_bind, h2]; rfl
    | diverge => simp only [output, Rnd.Eff.refit, h0, Out.ok_bind, h2]; rfl
    | ok r =>
      obtain ⟨t, used⟩ := r
      obtain ⟨ps, e, J, p, w1, o, a1, a2, a3, p1, a4, a5, a6, a7, a8, a9⟩ := C168_refitted hI hE i id w h0 h2
      obtain ⟨ps', e', J', p', w1', o', b1, b2, b3, p2, b4, b5, b6, b7, b8, b9⟩ := C168_refitted hI hE i' id w' h0 h2
      obtain rfl := Out.ok.inj (a1.symm.trans b1)
      obtain rfl := Option.some.inj (a2.symm.trans b2)
      obtain rfl := a3.trans b3.symm
      obtain rfl := p1.trans p2.symm
      rw [a4, b4, outTrack_ext (a5.trans b5.symm) (a6.trans b6.symm) (a7.trans b7.symm) (a8.trans b8.symm) (a9.trans b9.symm)]
      rfl

/-- C168: exactly the events with a single track are written, in order, each of them as if it were the only one. -/
theorem C168_file {S : Setup} (hI : IsStdSort sortWithS S.sortI) (hE : IsStdSort compareElements S.sortE) (i id : ℕ) (w : World)
    (evs : List (List InTrack)) (outs : List OutTrack) :
    Rnd.Eff.events A S i id w (fun _ => none) evs = .ok outs ↔ List.Forall₂ (Rnd.Eff.Refitted A S id) (evs.filterMap single) outs := by
  have hone : ∀ trk o, Rnd.Eff.Refitted A S id trk o ↔ ∀ w, ∃ w', Rnd.Eff.refit A S i id w (fun _ => none) trk = .ok (w', o) := by
    intro trk o
    constructor
    · rintro ⟨i1, w1, w1', h⟩ w
      rw [← output_ok, C168_independent hI hE i i1 id w w1, output_ok]
      exact ⟨w1', h⟩
    · intro h
      obtain ⟨w', h⟩ := h w
      exact ⟨i, w, w', h⟩
  induction evs generalizing w outs with
  | nil =>
    rw [List.filterMap_nil, List.forall₂_nil_left_iff, Rnd.Eff.events]
    exact ⟨fun h => (Out.ok.inj h).symm, fun h => by rw [h]⟩
  | cons ev evs ih =>
    rcases ev with _ | ⟨trk, _ | ⟨b, l⟩⟩
    · rw [List.filterMap_cons]
      exact ih w outs
    · rw [List.filterMap_cons]
      dsimp only [single]
      rw [List.forall₂_cons_left_iff, Rnd.Eff.events]
      constructor
      · intro h
        obtain ⟨⟨w1, o⟩, h1, h⟩ := Out.bind_eq_ok.mp h
        obtain ⟨os, h2, h⟩ := Out.bind_eq_ok.mp h
        exact ⟨o, os, ⟨i, w, w1, h1⟩, (ih w1 os).1 h2, (Out.ok.inj h).symm⟩
      · rintro ⟨o, os, h1, h2, rfl⟩
        obtain ⟨w1, h3⟩ := (hone trk o).1 h1 w
        rw [h3, Out.ok_bind]
        dsimp only
        rw [(ih w1 os).2 h2]
        rfl
    · rw [List.filterMap_cons]
      exact ih w outs

end Verif
