import Verif.Model.MaterialEffects
import Verif.Props.RefitState

/-!
# C107 – C110: the refit in `material_effects`
-/

open Classical

noncomputable section

namespace Verif

open Dbl Traj Refit

namespace MatEff

/-! ## Which hits can be used -/

/-- the hits that can be used: those that are not composite, and the raw hits of the others that are planar -/
def candidates (hits : List TrackHit) : List TrkHit :=
  hits.flatMap fun h => if h.composite then h.raw.filterMap (fun o => o.filter fun x => x.planar.isSome) else [h.hit]

/-- `h` is the last of the hits with this number -/
def LastWith (l : List TrkHit) (id : ℤ) (h : TrkHit) : Prop :=
  ∃ a b, l = a ++ h :: b ∧ h.cellID0 = id ∧ ∀ h' ∈ b, h'.cellID0 ≠ id

theorem enterRaw_eq (m : HitMap) (l : List (Option TrkHit)) :
    enterRaw m l = (l.filterMap fun o => o.filter fun x => x.planar.isSome).foldl enter m := by
  induction l generalizing m with
  | nil => rfl
  | cons o l ih =>
    cases o with
    | none => simp only [enterRaw, ih, List.filterMap_cons, Option.filter]
    | some h =>
      by_cases hp : h.planar.isSome
      · rw [enterRaw, if_pos hp, ih, List.filterMap_cons]
        simp [Option.filter, hp]
      · rw [enterRaw, if_neg hp, ih, List.filterMap_cons]
        simp [Option.filter, hp]

theorem fillMap_eq (m : HitMap) (hits : List TrackHit) : fillMap m hits = (candidates hits).foldl enter m := by
  induction hits generalizing m with
  | nil => rfl
  | cons h hits ih =>
    rw [fillMap, ih]
    unfold candidates
    rw [List.flatMap_cons, List.foldl_append]
    by_cases hc : h.composite = true
    · rw [if_pos hc, if_pos hc, enterRaw_eq]
    · rw [if_neg hc, if_neg hc]
      rfl

theorem foldl_spec (m : HitMap) (l : List TrkHit) (id : ℤ) :
    (∃ x, LastWith l id x ∧ l.foldl enter m id = some x) ∨ ((∀ x ∈ l, x.cellID0 ≠ id) ∧ l.foldl enter m id = m id) := by
  induction l generalizing m with
  | nil => exact Or.inr ⟨by simp, rfl⟩
  | cons x l ih =>
    rw [List.foldl_cons]
    rcases ih (enter m x) with ⟨y, ⟨a, b, e1, e2, e3⟩, hy⟩ | ⟨h1, h2⟩
    · exact Or.inl ⟨y, ⟨x :: a, b, by rw [e1]; rfl, e2, e3⟩, hy⟩
    · by_cases hx : x.cellID0 = id
      · refine Or.inl ⟨x, ⟨[], l, rfl, hx, h1⟩, ?_⟩
        rw [h2, enter, if_pos hx.symm]
      · refine Or.inr ⟨?_, ?_⟩
        · intro y hy
          rw [List.mem_cons] at hy
          rcases hy with rfl | hy
          · exact hx
          · exact h1 y hy
        · rw [h2, enter, if_neg (fun e => hx e.symm)]

/-- the precisions for resolutions `du` and `dv`: one if the second resolution is zero -/
def PrecisionOf (du dv : Dbl) (p : List Dbl) : Prop :=
  (dv = fin 0 → p = [1 / (du * du)]) ∧ (dv ≠ fin 0 → p = [1 / (du * du), 1 / (dv * dv)])

theorem precisionOf (du dv : Dbl) : PrecisionOf du dv (precision du dv) := by
  have key : Dbl.eqv dv 0 ↔ dv = fin 0 := by
    rw [zero_eq]
    cases dv <;> simp [Dbl.eqv]
  constructor
  · intro h
    unfold precision
    rw [cif_pos (key.2 h)]
  · intro h
    unfold precision
    rw [cif_neg (fun e => h (key.1 e))]

/-- the calls for a list of crossed surfaces, and the hits of the output track -/
inductive Calls (l : List TrkHit) (id : ℕ) : List Surface → List AddOp → List ℕ → Prop
  | nil : Calls l id [] [] []
  | hit {surf K ops used h du dv p} (hh : LastWith l surf.id h) (hr : resolution h = .ok (du, dv)) (hp : PrecisionOf du dv p)
      (hl : Calls l id K ops used) :
      Calls l id (surf :: K) (.measurement ⟨h.pos.x * fin (1 / 10), h.pos.y * fin (1 / 10), h.pos.z * fin (1 / 10)⟩ p surf id true :: ops)
        (h.addr :: used)
  | scatterer {surf K ops used} (hh : ∀ h ∈ l, h.cellID0 ≠ surf.id) (he : ¬ Empty surf) (hl : Calls l id K ops used) :
      Calls l id (surf :: K) (.scatterer surf :: ops) used
  | skip {surf K ops used} (hh : ∀ h ∈ l, h.cellID0 ≠ surf.id) (he : Empty surf) (hl : Calls l id K ops used) :
      Calls l id (surf :: K) ops used

theorem after_append (env : Env) (t : Traj) (l : List AddOp) (op : AddOp) :
    after env t (l ++ [op]) = after env (t.step env op).1 l := by
  induction l with
  | nil => rfl
  | cons o l ih => simp only [List.cons_append, after, ih]

theorem addAll_ok {env : Env} {id : ℕ} {hits : List TrackHit} {L : List (Dbl × Surface)} {t t' : Traj} {u u' : List ℕ}
    (h : addAll env id (fillMap (fun _ => none) hits) t u L = .ok (t', u')) :
    ∃ ops used, Calls (candidates hits) id (L.map Prod.snd) ops used ∧ t' = after env t ops.reverse ∧ u' = u ++ used := by
  induction L generalizing t u with
  | nil =>
    obtain ⟨h1, h2⟩ := Prod.mk.inj (Out.ok.inj h)
    exact ⟨[], [], .nil, h1.symm, by rw [← h2, List.append_nil]⟩
  | cons x L ih =>
    obtain ⟨s, surf⟩ := x
    rw [addAll] at h
    have hspec := foldl_spec (fun _ => none) (candidates hits) surf.id
    rw [← fillMap_eq] at hspec
    rcases hspec with ⟨x, hx, e⟩ | ⟨hn, e⟩
    · rw [e] at h
      dsimp only at h
      obtain ⟨⟨du, dv⟩, h1, h⟩ := Out.bind_eq_ok.mp h
      dsimp only at h
      obtain ⟨b, -, h⟩ := Out.bind_eq_ok.mp h
      obtain ⟨ops, used, h5, h6, h7⟩ := ih h
      refine ⟨_, _, .hit hx h1 (precisionOf du dv) h5, ?_, by rw [h7, List.append_assoc]; rfl⟩
      rw [h6, List.reverse_cons, after_append]
      rfl
    · rw [e] at h
      dsimp only at h
      rw [show (1e-6 : Dbl) = fin 0.000001 by rw [ofSci_eq]] at h
      by_cases hc : surf.innerMaterial.density < fin 0.000001 ∧ surf.outerMaterial.density < fin 0.000001
      · rw [cif_pos hc] at h
        obtain ⟨ops, used, h5, h6, h7⟩ := ih h
        exact ⟨_, _, .skip hn hc h5, h6, h7⟩
      · rw [cif_neg hc] at h
        obtain ⟨b, -, h⟩ := Out.bind_eq_ok.mp h
        obtain ⟨ops, used, h5, h6, h7⟩ := ih h
        refine ⟨_, _, .scatterer hn hc h5, ?_, h7⟩
        rw [h6, List.reverse_cons, after_append]

theorem calls_count {l : List TrkHit} {id : ℕ} {K : List Surface} {ops : List AddOp} {used : List ℕ} (hs : Calls l id K ops used)
    (hd : (l.map TrkHit.cellID0).Nodup) (ha : ∀ x ∈ l, ∀ y ∈ l, x.addr = y.addr → x = y) {h : TrkHit} (hh : h ∈ l) :
    used.count h.addr = (K.map Surface.id).count h.cellID0 := by
  have huniq : ∀ x ∈ l, x.cellID0 = h.cellID0 → x = h := fun x hx e => List.inj_on_of_nodup_map hd hx hh e
  induction hs with
  | nil => rfl
  | @hit surf K ops used x du dv p hx hr hp hl ih =>
    obtain ⟨a, b, e1, e2, -⟩ := hx
    have hm : x ∈ l := by rw [e1]; simp
    simp only [List.map_cons, List.count_cons, ih]
    congr 1
    by_cases hc : x = h
    · subst hc; simp [e2]
    · have n1 : ¬ x.addr = h.addr := fun e => hc (ha _ hm _ hh e)
      have n2 : ¬ surf.id = h.cellID0 := fun e => hc (huniq x hm (e2.trans e))
      simp [n1, n2]
  | @scatterer surf K ops used hn he hl ih =>
    have n2 : ¬ surf.id = h.cellID0 := fun e => hn h hh e.symm
    simp only [List.map_cons, List.count_cons, ih]
    simp [n2]
  | @skip surf K ops used hn he hl ih =>
    have n2 : ¬ surf.id = h.cellID0 := fun e => hn h hh e.symm
    simp only [List.map_cons, List.count_cons, ih]
    simp [n2]

theorem trajectory_ok {S : Setup} {id : ℕ} {m : HitMap} {tp : TP} {t : Traj} {used : List ℕ} (h : trajectory S id m tp = .ok (t, used)) :
    ∃ L t1, (Traj.make tp).getIntersections S.sortI S.surfaces = (t1, .ok L) ∧
      ∃ t2, addAll S.env id m t1 [] L = .ok (t2, used) ∧ t2.prepareForFitting S.env S.sortE = .ok t := by
  unfold trajectory at h
  rcases hg : (Traj.make tp).getIntersections S.sortI S.surfaces with ⟨t1, r⟩
  rw [hg] at h
  dsimp only at h
  obtain ⟨L, h2, h⟩ := Out.bind_eq_ok.mp h
  obtain ⟨⟨t2, u⟩, h3, h⟩ := Out.bind_eq_ok.mp h
  obtain ⟨t3, h4, h⟩ := Out.bind_eq_ok.mp h
  obtain ⟨rfl, rfl⟩ := Prod.mk.inj (Out.ok.inj h)
  exact ⟨L, t1, by rw [h2], t2, h3, h4⟩

theorem calls_prec {l : List TrkHit} {id : ℕ} {K : List Surface} {ops : List AddOp} {used : List ℕ} (hs : Calls l id K ops used) :
    ∀ op ∈ ops, PrecGiven op := by
  induction hs with
  | nil => intro op h; cases h
  | @hit surf K ops used x du dv p hx hr hp hl ih =>
    intro op hop
    rw [List.mem_cons] at hop
    rcases hop with rfl | hop
    · by_cases h0 : dv = fin 0
      · simp [PrecGiven, hp.1 h0]
      · simp [PrecGiven, hp.2 h0]
    · exact ih op hop
  | scatterer hn he hl ih =>
    intro op hop
    rw [List.mem_cons] at hop
    rcases hop with rfl | hop
    · trivial
    · exact ih op hop
  | skip hn he hl ih => exact ih

end MatEff

open MatEff

/-! ## C107 -/

/-- C107: what is fitted.  The crossed surfaces are those crossed by the track of the file in the forward half turn, in order; for
each of them, in this order, the last hit with its number is added as measurement and listed in the output track, or a scatterer is
added if there is no such hit and there is material. -/
theorem C107_calls {S : Setup} (hI : IsStdSort sortWithS S.sortI) {id : ℕ} {tp : TP} {hits : List TrackHit} {t : Traj} {used : List ℕ}
    (h : MatEff.trajectory S id (MatEff.fillMap (fun _ => none) hits) tp = .ok (t, used)) :
    ∃ (L : List (Dbl × Surface)) (ops : List AddOp) (t' : Traj),
      (∀ x, x ∈ L ↔ ∃ surf ∈ S.surfaces, ∃ s, CrossedAt tp surf s ∧ x = (fin s, surf)) ∧ L.Pairwise (fun a b => a.1 ≤ b.1) ∧
      Calls (candidates hits) id (L.map Prod.snd) ops used ∧
      (after S.env (make tp) ops.reverse).prepareForFitting S.env S.sortE = .ok t' ∧ t = { t' with inters := L } := by
  obtain ⟨L, t1, h2, t2, h3, h4⟩ := MatEff.trajectory_ok h
  obtain ⟨e1, -, e2, e3⟩ := C51_crossings_partial hI rfl h2
  obtain ⟨ops, used', e4, e5, e8⟩ := MatEff.addAll_ok h3
  rw [e5, e1, after_inters] at h4
  obtain ⟨t', e6, e7⟩ := prepare_inters h4
  rw [List.nil_append] at e8
  exact ⟨L, ops, t', e3, e2, by rw [e8]; exact e4, e6, e7⟩

/-- C107 (partial): if no two usable hits have the same number, a hit is used and listed as often as there are crossed surfaces with its
number.  Missing: hits with the same number; raw hits that are not planar (`C107_raw_false`); surfaces with large numbers
(`C107_number_false`). -/
theorem C107_count_partial {S : Setup} (hI : IsStdSort sortWithS S.sortI) {id : ℕ} {tp : TP} {hits : List TrackHit} {t : Traj}
    {used : List ℕ} (h : MatEff.trajectory S id (MatEff.fillMap (fun _ => none) hits) tp = .ok (t, used))
    (hd : ((candidates hits).map TrkHit.cellID0).Nodup)
    (ha : ∀ x ∈ candidates hits, ∀ y ∈ candidates hits, x.addr = y.addr → x = y) :
    ∃ (L : List (Dbl × Surface)), (∀ x, x ∈ L ↔ ∃ surf ∈ S.surfaces, ∃ s, CrossedAt tp surf s ∧ x = (fin s, surf)) ∧
      ∀ x ∈ candidates hits, used.count x.addr = (L.map fun y => y.2.id).count x.cellID0 := by
  obtain ⟨L, ops, t', h1, -, h2, h3, h4⟩ := C107_calls hI h
  refine ⟨L, h1, fun x hx => ?_⟩
  rw [calls_count h2 hd ha hx, List.map_map]
  rfl

/-- C107 is false: a raw hit of a composite hit that is not planar is ignored, it has no influence on what is fitted. -/
theorem C107_raw_false (S : Setup) (id : ℕ) (tp : TP) (l1 l2 : List TrackHit) (x : TrackHit) (a b : List (Option TrkHit)) (r : TrkHit)
    (hx : x.composite = true) (hr : x.raw = a ++ some r :: b) (hp : r.planar = none) :
    MatEff.trajectory S id (MatEff.fillMap (fun _ => none) (l1 ++ x :: l2)) tp =
      MatEff.trajectory S id (MatEff.fillMap (fun _ => none) (l1 ++ { x with raw := a ++ b } :: l2)) tp := by
  have key : candidates (l1 ++ x :: l2) = candidates (l1 ++ { x with raw := a ++ b } :: l2) := by
    unfold candidates
    rw [List.flatMap_append, List.flatMap_append, List.flatMap_cons, List.flatMap_cons]
    dsimp only
    rw [if_pos hx, if_pos hx, hr, List.filterMap_append, List.filterMap_append, List.filterMap_cons]
    simp [Option.filter, hp]
  rw [MatEff.fillMap_eq, MatEff.fillMap_eq, key]

/-- C107 is false: cell numbers of hits have 32 bits with sign, so a surface whose number does not fit is never measured. -/
theorem C107_number_false {hits : List TrackHit} {id : ℕ} {K : List Surface} {ops : List AddOp} {used : List ℕ}
    (hs : Calls (candidates hits) id K ops used) (hc : ∀ x ∈ candidates hits, -2 ^ 31 ≤ x.cellID0 ∧ x.cellID0 < 2 ^ 31)
    {surf : Surface} (hn : 2 ^ 31 ≤ surf.id) (pos : V3) (p : List Dbl) (i : ℕ) (sc : Bool) : .measurement pos p surf i sc ∉ ops := by
  induction hs with
  | nil => simp
  | @hit s K ops used x du dv p hx hr hp hl ih =>
    obtain ⟨a, b, e1, e2, -⟩ := hx
    have := (hc x (by rw [e1]; simp)).2
    intro hm
    rw [List.mem_cons] at hm
    rcases hm with hm | hm
    · injection hm with _ _ h3
      rw [h3] at hn
      omega
    · exact ih hm
  | scatterer hn' he hl ih =>
    intro hm
    rw [List.mem_cons] at hm
    rcases hm with hm | hm
    · cases hm
    · exact ih hm
  | skip hn' he hl ih => exact ih

/-! ## C108 -/

/-- C108 (partial): a hit with two resolutions different from zero constrains both directions, with the inverse squares as
precisions; nothing else goes into the measurement.  Missing: hits with one resolution (`C108_second_false`). -/
theorem C108_two_partial {env : Env} {t : Traj} {pos : V3} {surf : Surface} {id : ℕ} {du dv : ℝ} (hu : du ≠ 0) (hv : dv ≠ 0)
    (h : (t.step env (.measurement pos (MatEff.precision (fin du) (fin dv)) surf id true)).2 = .ok true) :
    ∃ (back e : Element) (hit : Hit) (tp : TP) (w : Dbl), t.withStart.elems.getLast? = some back ∧
      (t.step env (.measurement pos (MatEff.precision (fin du) (fin dv)) surf id true)).1.elems = t.withStart.elems ++ [e] ∧
      intersectWithSurface surf back.tp.hp back.tp.rp 0 V3.zero 1 false = .ok hit ∧ hit.found = true ∧
      moveHelixTo back.tp hit.xx false = .ok (tp, w) ∧
      ∀ j, ∃ pt, gblPoint { e with jac := some j } = .ok pt ∧
        PointOf env t.mass surf hit tp pos true (fin (1 / du ^ 2)) (fin (1 / dv ^ 2)) j pt := by
  have hp : MatEff.precision (fin du) (fin dv) = [fin (1 / du ^ 2), fin (1 / dv ^ 2)] := by
    rw [(precisionOf (fin du) (fin dv)).2 (by simpa using hv), fin_mul, fin_mul, one_eq, fin_div _ (mul_ne_zero hu hu),
      fin_div _ (mul_ne_zero hv hv), sq, sq]
  obtain ⟨back, e, hit, tp, w, r1, r2, r3, r4, r5, r6, -⟩ := C52_measurement_partial h
  exact ⟨back, e, hit, tp, w, r1, r2, r3, r4, r5, fun j => r6 _ _ j hp⟩

/-- C108 is false: a hit whose second resolution is zero is added with one precision, and the variance of the multiple scattering
angle takes the place of the second one. -/
theorem C108_second_false {env : Env} {t : Traj} {pos : V3} {surf : Surface} {id : ℕ} {du : Dbl}
    (h : (t.step env (.measurement pos (MatEff.precision du (fin 0)) surf id true)).2 = .ok true) :
    ∃ (back e : Element) (hit : Hit) (tp : TP) (w : Dbl), t.withStart.elems.getLast? = some back ∧
      (t.step env (.measurement pos (MatEff.precision du (fin 0)) surf id true)).1.elems = t.withStart.elems ++ [e] ∧
      intersectWithSurface surf back.tp.hp back.tp.rp 0 V3.zero 1 false = .ok hit ∧
      moveHelixTo back.tp hit.xx false = .ok (tp, w) ∧
      ∀ j, ∃ pt, gblPoint { e with jac := some j } = .ok pt ∧
        PointOf env t.mass surf hit tp pos true (1 / (du * du)) (hitQMS env t.mass surf hit tp * hitQMS env t.mass surf hit tp) j pt := by
  rw [(precisionOf du (fin 0)).1 rfl] at h ⊢
  exact C52_second_false h

/-- C108 is false: there is a hit with resolution zero in the second direction that constrains this direction. -/
theorem C108_false (pos : V3) (du : Dbl) (id : ℕ) (j : M5) :
    ∃ (surf : Surface) (e : Element) (pt : GblPoint) (P : Fin 2 → Fin 2 → Dbl) (R : Fin 2 → Dbl) (q : ℝ),
      ((make Example.tp).step Example.env (.measurement pos (MatEff.precision du (fin 0)) surf id true)).2 = .ok true ∧
      ((make Example.tp).step Example.env (.measurement pos (MatEff.precision du (fin 0)) surf id true)).1.elems =
        (make Example.tp).withStart.elems ++ [e] ∧
      gblPoint { e with jac := some j } = .ok pt ∧ pt.meas = some (P, R, ![1 / (du * du), fin q]) ∧ 0 < q := by
  rw [(precisionOf du (fin 0)).1 rfl]
  exact C52_false pos (1 / (du * du)) id j

/-! ## C109 -/

namespace MatEff

/-- if the surfaces are crossed after the start element, this is the first one -/
theorem first_start {env : Env} {sort : List Element → List Element} (hE : IsStdSort compareElements sort) {tp : TP} {ops : List AddOp}
    {t' : Traj} (hprep : (after env (make tp) ops).prepareForFitting env sort = .ok t') {s0 : ℝ}
    (hs0 : calculateSfromXY 0 0 tp.hp tp.rp = fin s0) (hpos : ∀ e ∈ t'.elems, e.surface ≠ none → fin s0 < e.arc) :
    ∃ e, t'.elems[0]? = some e ∧ e.tp = tp := by
  obtain ⟨-, -, -, hperm, hsort, first, rest, helems, -⟩ := prepare_ok hE hprep
  have hstart := C47_start env tp ops (by
    intro h0
    rw [h0, helems] at hperm
    simpa using hperm.length_eq)
  refine ⟨first, by rw [helems]; rfl, ?_⟩
  have hback : ∀ e ∈ t'.elems, ∃ x ∈ (after env (make tp) ops).elems, noJac x = noJac e := by
    intro e he
    have : noJac e ∈ (after env (make tp) ops).elems.map noJac := hperm.subset (List.mem_map_of_mem he)
    obtain ⟨x, hx, e1⟩ := List.mem_map.mp this
    exact ⟨x, hx, e1⟩
  have hforth : ∃ e ∈ t'.elems, noJac e = noJac (Element.start (calculateSfromXY 0 0 tp.hp tp.rp) tp 0) := by
    have h1 : Element.start (calculateSfromXY 0 0 tp.hp tp.rp) tp 0 ∈ (after env (make tp) ops).elems :=
      List.mem_of_mem_head? hstart
    have : noJac (Element.start (calculateSfromXY 0 0 tp.hp tp.rp) tp 0) ∈ t'.elems.map noJac :=
      hperm.symm.subset (List.mem_map_of_mem h1)
    obtain ⟨x, hx, e1⟩ := List.mem_map.mp this
    exact ⟨x, hx, e1⟩
  have htp' : ∀ e e' : Element, noJac e = noJac e' → e.tp = e'.tp ∧ e.arc = e'.arc ∧ e.surface = e'.surface := by
    intro e e' h
    have h1 := congrArg Element.tp h
    have h2 := congrArg Element.arc h
    have h3 := congrArg Element.surface h
    exact ⟨h1, h2, h3⟩
  obtain ⟨st, hst, hst2⟩ := hforth
  obtain ⟨-, hsta, -⟩ := htp' _ _ hst2
  have hsta : st.arc = fin s0 := by rw [hsta]; exact hs0
  have hnone : first.surface = none := by
    by_contra hne
    have h1 := hpos first (by rw [helems]; simp) hne
    rw [helems] at hst hsort
    rw [List.mem_cons] at hst
    rcases hst with rfl | hst
    · rw [hsta, fin_lt] at h1
      exact lt_irrefl _ h1
    · have := (List.pairwise_cons.mp hsort).1 st hst
      rw [hsta] at this
      exact this h1
  obtain ⟨x, hx, hx2⟩ := hback first (by rw [helems]; simp)
  obtain ⟨g1, g2, g3⟩ := htp' _ _ hx2
  have := after_surface env tp ops x hx (by rw [g3, hnone])
  rw [this] at g1
  exact g1.symm

/-- some run of the program gives this output for the track of an event -/
def Refitted (S : Setup) (id : ℕ) (trk : InTrack) (o : OutTrack) : Prop := ∃ i w w', refit S i id w (fun _ => none) trk = .ok (w', o)

/-- whenever the trajectory can be made, the track is refitted -/
theorem refit_eq {S : Setup} (hI : IsStdSort sortWithS S.sortI) (hE : IsStdSort compareElements S.sortE) (i id : ℕ) (w : World)
    {trk : InTrack} {tp : TP} {t : Traj} {used : List ℕ} (h0 : readLCIO trk.state = .ok tp)
    (h1 : trajectory S id (fillMap (fun _ => none) trk.hits) tp = .ok (t, used)) :
    ∃ ps r w', gblPoints t.elems = .ok ps ∧ ResultOf (S.gbl ps) t S.env.field 0 r ∧
      refit S i id w (fun _ => none) trk = .ok (w', ⟨used, narrow S.fl (S.gbl ps).chi2, toInt ((S.gbl ps).ndf), used.length,
        [{ createLCIO S.fl r.estParams with ref := V3.zero, location := 1 }]⟩) := by
  obtain ⟨L, ops, t', -, -, hs, hprep, ht⟩ := C107_calls hI h1
  obtain ⟨ps, hps, -⟩ := C73_points hE tp ops.reverse (fun op hop => calls_prec hs op (List.mem_reverse.mp hop)) hprep
  have hel : t.elems = t'.elems := by rw [ht]
  rw [← hel] at hps
  have hne : 0 < t.elems.length := by
    rw [hel]
    obtain ⟨-, -, -, -, -, first, rest, h6, -⟩ := prepare_ok hE hprep
    rw [h6]; simp
  obtain ⟨w1, p, r, f1, f2, f3⟩ := World.fit_result S.gbl (w.step S.gbl (.setTraj i (some (t, S.env.field)))) i
    (t := t) (field := S.env.field) (by simp [World.step]) hps 0 hne
  have g1 := (fit_ok S.gbl (w.step S.gbl (.setTraj i (some (t, S.env.field)))) i (t := t) (field := S.env.field)
    (by simp [World.step]) hps).1
  have hw : ∃ w', refit S i id w (fun _ => none) trk = .ok (w', write S.fl used r) := by
    unfold refit
    rw [h0, Out.ok_bind, h1, Out.ok_bind]
    dsimp only
    simp only [g1, Out.ok_bind]
    rw [show (((0 : ℕ) : ℤ)) = 0 from rfl] at f1
    simp only [f1, Out.ok_bind, f2]
    exact ⟨_, rfl⟩
  obtain ⟨w', hw⟩ := hw
  refine ⟨ps, r, w', hps, f3, ?_⟩
  rw [hw]
  unfold write
  rw [f3.chi2, f3.ndf]
  have : toInt ((S.gbl ps).ndf % 2 ^ 32) = toInt (S.gbl ps).ndf := by unfold toInt; omega
  rw [this]

theorem refit_ok {S : Setup} {i id : ℕ} {w w' : World} {m : HitMap} {trk : InTrack} {o : OutTrack}
    (h : refit S i id w m trk = .ok (w', o)) :
    ∃ tp t used, readLCIO trk.state = .ok tp ∧ trajectory S id (fillMap m trk.hits) tp = .ok (t, used) := by
  unfold refit at h
  obtain ⟨tp, h1, h⟩ := Out.bind_eq_ok.mp h
  obtain ⟨⟨t, used⟩, h2, -⟩ := Out.bind_eq_ok.mp h
  exact ⟨tp, t, used, h1, h2⟩

/-- reading a state after its reference point has been replaced -/
theorem read_zero {ts : TrackState} {tp : TP} (h : readLCIO ts = .ok tp) :
    readLCIO { ts with ref := V3.zero, location := 1 } = .ok { tp with rp := V3.zero } := by
  have hz : (0 : Dbl) * unit_mm = 0 := by rw [zero_eq, unit_mm_eq, fin_mul, zero_mul]
  unfold readLCIO at h ⊢
  dsimp only at h ⊢
  repeat
    obtain ⟨c, hc, h⟩ := Out.bind_eq_ok.mp h
    refine Out.bind_eq_ok.mpr ⟨c, hc, ?_⟩
  rw [← Out.ok.inj h]
  simp only [V3.zero, hz]
  rfl

/-- some run of the program -/
theorem refitted_ok {S : Setup} (hI : IsStdSort sortWithS S.sortI) (hE : IsStdSort compareElements S.sortE) {id : ℕ} {trk : InTrack}
    {o : OutTrack} (h : Refitted S id trk o) :
    ∃ tp t used ps r, readLCIO trk.state = .ok tp ∧ trajectory S id (fillMap (fun _ => none) trk.hits) tp = .ok (t, used) ∧
      gblPoints t.elems = .ok ps ∧ ResultOf (S.gbl ps) t S.env.field 0 r ∧
      o = ⟨used, narrow S.fl (S.gbl ps).chi2, toInt ((S.gbl ps).ndf), used.length,
        [{ createLCIO S.fl r.estParams with ref := V3.zero, location := 1 }]⟩ := by
  obtain ⟨i, w, w', h⟩ := h
  obtain ⟨tp, t, used, h1, h2⟩ := refit_ok h
  obtain ⟨ps, r, w1, h3, h4, h5⟩ := refit_eq hI hE i id w h1 h2
  rw [h] at h5
  exact ⟨tp, t, used, ps, r, h1, h2, h3, h4, (Prod.mk.inj (Out.ok.inj h5)).2⟩

end MatEff

/-- C109 (partial): if the surfaces are crossed after the start element, the written state has the parameters and covariance of the
fitted track: the track of the file, corrected by the fit at its own reference point.  Missing: the reference point
(`C109_reference_false`). -/
theorem C109_state_partial {S : Setup} (hI : IsStdSort sortWithS S.sortI) (hE : IsStdSort compareElements S.sortE) {id : ℕ} {trk : InTrack}
    {o : OutTrack} (h : MatEff.Refitted S id trk o) {tp : TP} (h0 : readLCIO trk.state = .ok tp) {t : Traj} {used : List ℕ}
    (ht : MatEff.trajectory S id (MatEff.fillMap (fun _ => none) trk.hits) tp = .ok (t, used)) {s0 : ℝ}
    (hs0 : calculateSfromXY 0 0 tp.hp tp.rp = fin s0) (hpos : ∀ e ∈ t.elems, e.surface ≠ none → fin s0 < e.arc) :
    ∃ ps err c C J, gblPoints t.elems = .ok ps ∧ (S.gbl ps).results 0 = (err, c, C) ∧
      J = curvilinearToL3Jacobian tp.hp (S.env.field tp.rp) ∧
      o.states = [{ createLCIO S.fl (⟨M5.mul (M5.mul J C) (M5.transpose J),
        V5.add tp.hp (M5.mulVec J (if err = 0 then c else V5.zero)), tp.rp⟩ : TP) with ref := V3.zero, location := 1 }] := by
  obtain ⟨tp', t', used', ps, r, a1, a2, a3, a4, rfl⟩ := refitted_ok hI hE h
  rw [h0] at a1
  obtain rfl := Out.ok.inj a1
  rw [ht] at a2
  obtain ⟨rfl, rfl⟩ := Prod.mk.inj (Out.ok.inj a2)
  obtain ⟨L, ops, t', -, -, -, hprep, rfl⟩ := C107_calls hI ht
  obtain ⟨e, e1, e2⟩ := first_start hE hprep hs0 hpos
  obtain ⟨n, e', c1, c2, c3, J, c4, c5, c6, c7⟩ := a4.params
  have hn : n = 0 := by omega
  subst hn
  change t'.elems[0]? = _ at c2
  rw [e1] at c2
  injection c2 with c2
  subst c2
  rw [e2] at c3 c4 c5 c6
  rcases hres : (S.gbl ps).results 0 with ⟨err, c, C⟩
  have hr : r.estParams = ⟨M5.mul (M5.mul J C) (M5.transpose J),
      V5.add tp.hp (M5.mulVec J (if err = 0 then c else V5.zero)), tp.rp⟩ := by
    rw [hres] at c7
    have h1 : r.estParams.hp = V5.add tp.hp (M5.mulVec J (if err = 0 then c else V5.zero)) := by
      by_cases he : err = 0
      · rw [if_pos he]; exact c5 c C (by rw [hres, he])
      · rw [if_neg he]; exact c6 err c C hres he
    rw [← c3, ← c7, ← h1]
  exact ⟨ps, err, c, C, J, a3, hres, c4, by rw [hr]⟩

/-- C109 is false: the reference point of the track is replaced by the origin without moving the track.  Without rounding the state
is read back as a track that is displaced by the reference point, at every arc length. -/
theorem C109_reference_false {cov : Fin 5 → Fin 5 → ℝ} (hsym : ∀ i j, cov i j = cov j i) {om tl ph d z x y u : ℝ} (hom : om ≠ 0) :
    ∃ tp, readLCIO { createLCIO _root_.id ⟨M5.re cov, hpR om tl ph d z, V3.re x y u⟩ with ref := V3.zero, location := 1 } = .ok tp ∧
      ∀ s : ℝ, ∃ a b c : ℝ, pointAt (fin s) (hpR om tl ph d z) (V3.re x y u) = V3.re (a + x) (b + y) (c + u) ∧
        pointAt (fin s) tp.hp tp.rp = V3.re a b c := by
  have hp : hpR om tl ph d z = V5.re ![om, tl, ph, d, z] := by
    funext i
    fin_cases i <;> rfl
  have h := C57_exact ![om, tl, ph, d, z] cov hsym x y u
  rw [← hp] at h
  refine ⟨_, read_zero h, fun s => ⟨rX om ph d 0 s, rY om ph d 0 s, rZ tl z 0 s, ?_, ?_⟩⟩
  · rw [pointAt_re hom]
    simp only [rX, rY, rZ]
    congr 1 <;> ring
  · have hz0 : V3.zero = V3.re 0 0 0 := by simp only [V3.zero, V3.re, zero_eq]
    dsimp only
    rw [hz0, pointAt_re hom]

/-! ## C110 -/

/-- the track of an event with a single track -/
def single : List InTrack → Option InTrack
  | [trk] => some trk
  | _ => none

/-- C110: exactly the events with a single track are written, in order, each of them as if it were the only one. -/
theorem C110_file {S : Setup} (hI : IsStdSort sortWithS S.sortI) (hE : IsStdSort compareElements S.sortE) (i id : ℕ) (w : World)
    (evs : List (List InTrack)) (outs : List OutTrack) :
    MatEff.events S i id w (fun _ => none) evs = .ok outs ↔
      List.Forall₂ (MatEff.Refitted S id) (evs.filterMap single) outs := by
  have hone : ∀ trk o, MatEff.Refitted S id trk o ↔ ∀ w, ∃ w', MatEff.refit S i id w (fun _ => none) trk = .ok (w', o) := by
    intro trk o
    constructor
    · intro h w
      obtain ⟨tp, t, used, ps, r, a1, a2, a3, a4, rfl⟩ := refitted_ok hI hE h
      obtain ⟨ps', r', w', b1, b2, b3⟩ := refit_eq hI hE i id w a1 a2
      rw [a3] at b1
      obtain rfl := Out.ok.inj b1
      have hr := World.resultOf_unique a4 b2
      subst hr
      exact ⟨w', b3⟩
    · intro h
      obtain ⟨w', h⟩ := h w
      exact ⟨i, w, w', h⟩
  induction evs generalizing w outs with
  | nil =>
    rw [List.filterMap_nil, List.forall₂_nil_left_iff, MatEff.events]
    exact ⟨fun h => (Out.ok.inj h).symm, fun h => by rw [h]⟩
  | cons ev evs ih =>
    rcases ev with _ | ⟨trk, _ | ⟨b, l⟩⟩
    · rw [List.filterMap_cons]
      exact ih w outs
    · rw [List.filterMap_cons]
      dsimp only [single]
      rw [List.forall₂_cons_left_iff, MatEff.events]
      constructor
      · intro h
        obtain ⟨⟨w1, o⟩, h1, h⟩ := Out.bind_eq_ok.mp h
        obtain ⟨os, h2, h⟩ := Out.bind_eq_ok.mp h
        exact ⟨o, os, ⟨i, w, w1, h1⟩, (ih w1 os).1 h2, (Out.ok.inj h).symm⟩
      · rintro ⟨o, os, h1, h2, rfl⟩
        obtain ⟨w1, h3⟩ := (hone trk o).1 h1 w
        rw [h3, Out.ok_bind]
        dsimp only
        rw [(ih w1 os).2 h2]
        rfl
    · rw [List.filterMap_cons]
      exact ih w outs

/-! ## A case -/

namespace Example

/-- a state that is read as the start helix of the four hits -/
theorem four_state : ∃ state, readLCIO state = .ok fourSeed := by
  refine ⟨createLCIO _root_.id fourSeed, ?_⟩
  · have h := C57_exact ![1, 1, 0, 0, 0]
      (fun i j => if i = j then ![(1e-2 : ℝ), 1e2, 1e2, 1e5, 1e5] i else 0) (by
        intro i j
        by_cases h : i = j
        · subst h; rfl
        · rw [if_neg h, if_neg (fun e => h e.symm)]) 0 0 0
    have e : fourSeed = ⟨M5.re fun i j => if i = j then ![(1e-2 : ℝ), 1e2, 1e2, 1e5, 1e5] i else 0, V5.re ![1, 1, 0, 0, 0], V3.re 0 0 0⟩ := by
      unfold fourSeed
      rw [four_zero]
      congr 1
      · funext i j
        fin_cases i <;> fin_cases j <;>
          simp [seedCov, M5.unit, M5.set, M5.re, M5.zero, OMEGA, TANL, PHI0, D0, Z0, ofSci_eq, zero_eq]
      · funext i
        fin_cases i <;> rfl
    rw [e]
    exact h

theorem matEff_four {gbl : Fitter} {sortI : List (Dbl × Surface) → List (Dbl × Surface)} {sortE : List Element → List Element}
    {fl : ℝ → ℝ} (hI : IsStdSort sortWithS sortI) (hE : IsStdSort compareElements sortE) (id : ℕ) :
    ∃ t, MatEff.trajectory (fourSetup gbl sortI sortE fl) id (MatEff.fillMap (fun _ => none) fourHits) fourSeed = .ok (t, [5]) ∧
      t.elems.length = 2 ∧ ∀ e ∈ t.elems, e.surface ≠ none → 0 < e.arc := by
  have hm0 : MatEff.fillMap (fun _ => none) fourHits 0 = some diskHit := by
    simp [MatEff.fillMap, MatEff.enter, fourHits, diskHit]
  obtain ⟨t2, t', hL, hstep, ht', h2, h3⟩ := four_prepared hI hE (MatEff.precision (fin 1 * unit_mm) (fin 2 * unit_mm)) id
  have hadd : MatEff.addAll env id (MatEff.fillMap (fun _ => none) fourHits) { make fourSeed with inters := [(fin 1, disk)] } []
      [(fin 1, disk)] = .ok (t2, [5]) := by
    rw [MatEff.addAll, show disk.id = 0 by rfl, hm0]
    dsimp only
    rw [show resolution diskHit = .ok (fin 1 * unit_mm, fin 2 * unit_mm) from rfl, Out.ok_bind]
    dsimp only
    rw [hstep]
    rfl
  refine ⟨t', ?_, h2, h3⟩
  unfold MatEff.trajectory fourSetup
  simp only [Out.ok_bind, hL, hadd, ht', Out.pure_eq]

/-- a case for C107, C109 and C110: in a file with three events, the second one with the four hits as its only track, one event is
written, with the hit on the disk -/
example {gbl : Fitter} {sortI : List (Dbl × Surface) → List (Dbl × Surface)} {sortE : List Element → List Element}
    {fl : ℝ → ℝ} (hI : IsStdSort sortWithS sortI) (hE : IsStdSort compareElements sortE) (i id : ℕ) (w : World) (a b : InTrack) :
    ∃ (state : TrackState) (o : OutTrack), MatEff.events (fourSetup gbl sortI sortE fl) i id w (fun _ => none)
      [[], [fourTrack state], [a, b]] = .ok [o] ∧ o.hits = [5] ∧ o.states.length = 1 := by
  obtain ⟨state, hst⟩ := four_state
  obtain ⟨t, ht, -⟩ := matEff_four (gbl := gbl) (fl := fl) hI hE id
  obtain ⟨ps, r, w', -, -, h1⟩ := MatEff.refit_eq (S := fourSetup gbl sortI sortE fl) hI hE i id w (trk := fourTrack state) hst ht
  refine ⟨state, _, (C110_file (S := fourSetup gbl sortI sortE fl) hI hE i id w [[], [fourTrack state], [a, b]] [_]).2
    (List.Forall₂.cons ⟨i, w, w', h1⟩ List.Forall₂.nil), rfl, rfl⟩

end Example

end Verif
