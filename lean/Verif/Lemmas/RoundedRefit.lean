import Verif.Model.RoundedRefit
import Verif.Props.Refit

/-!
# Lemmas about the program `lcio_tracks` in double precision
-/

open Classical

noncomputable section

namespace Verif

open Dbl Traj Refit

namespace Rnd

variable {A : Arith}

/-! ## Crossed surfaces -/

theorem loop_mem {ref : TP} {maxS : Dbl} : ∀ {surfaces : List Surface} {l l' : List (Dbl × Surface)},
    Rnd.intersectionLoop A.fl A.lm A.at2 A.asn A.atn ref maxS l surfaces = (l', .ok ()) →
    ∀ x, x ∈ l' ↔ x ∈ l ∨ ∃ surf ∈ surfaces, ∃ hit, Rnd.intersectWithSurface A.fl A.lm A.at2 A.asn A.atn surf ref.hp ref.rp 0 V3.zero 1 true = .ok hit ∧
      hit.found = true ∧ 0 ≤ hit.s ∧ hit.s < maxS ∧ x = (hit.s, surf) := by
  intro surfaces
  induction surfaces with
  | nil =>
    intro l l' h x
    injection h with h
    subst h
    simp
  | cons surf rest ih =>
    intro l l' h x
    rw [Rnd.intersectionLoop] at h
    cases hi : Rnd.intersectWithSurface A.fl A.lm A.at2 A.asn A.atn surf ref.hp ref.rp 0 V3.zero 1 true with
    | ok hit =>
      rw [hi] at h
      dsimp only at h
      by_cases hc : hit.found = true ∧ 0 ≤ hit.s ∧ hit.s < maxS
      · rw [cif_pos hc] at h
        rw [ih h x, List.mem_append, List.mem_singleton]
        constructor
        · rintro ((h1 | rfl) | ⟨s, hs, h1⟩)
          · exact .inl h1
          · exact .inr ⟨surf, by simp, hit, hi, hc.1, hc.2.1, hc.2.2, rfl⟩
          · exact .inr ⟨s, by simp [hs], h1⟩
        · rintro (h1 | ⟨s, hs, hit', h1, h2⟩)
          · exact .inl (.inl h1)
          · rcases List.mem_cons.1 hs with rfl | hs
            · rw [hi] at h1
              injection h1 with h1
              subst h1
              exact .inl (.inr h2.2.2.2)
            · exact .inr ⟨s, hs, hit', h1, h2⟩
      · rw [cif_neg hc] at h
        rw [ih h x]
        constructor
        · rintro (h1 | ⟨s, hs, h1⟩)
          · exact .inl h1
          · exact .inr ⟨s, by simp [hs], h1⟩
        · rintro (h1 | ⟨s, hs, hit', h1, h2⟩)
          · exact .inl h1
          · rcases List.mem_cons.1 hs with rfl | hs
            · rw [hi] at h1
              injection h1 with h1
              subst h1
              exact absurd ⟨h2.1, h2.2.1, h2.2.2.1⟩ hc
            · exact .inr ⟨s, hs, hit', h1, h2⟩
    | throw w => rw [hi] at h; injection h with _ h; cases h
    | ub w => rw [hi] at h; injection h with _ h; cases h
    | diverge => rw [hi] at h; injection h with _ h; cases h

/-- what a call of `getIntersectionsWithSurfaces` that returns normally does -/
theorem intersections_ok {sort : List (Dbl × Surface) → List (Dbl × Surface)} (hsort : IsStdSort sortWithS sort) {tp : TP} {t' : Traj} {surfaces : List Surface}
    {l : List (Dbl × Surface)} (h : Rnd.getIntersections A.fl A.lm A.at2 A.asn A.atn sort (Traj.make tp) surfaces = (t', .ok l)) :
    t' = { Traj.make tp with inters := l } ∧ l.Pairwise (fun a b => ¬ b.1 < a.1) ∧
      ∀ x, x ∈ l ↔ ∃ surf ∈ surfaces, ∃ hit, Rnd.intersectWithSurface A.fl A.lm A.at2 A.asn A.atn surf tp.hp tp.rp 0 V3.zero 1 true = .ok hit ∧
        hit.found = true ∧ 0 ≤ hit.s ∧ hit.s < Rnd.maxArc A.fl tp.hp ∧ x = (hit.s, surf) := by
  unfold Rnd.getIntersections at h
  cases hl : Rnd.intersectionLoop A.fl A.lm A.at2 A.asn A.atn (Traj.make tp).ref (Rnd.maxArc A.fl (Traj.make tp).ref.hp) (Traj.make tp).inters surfaces with
  | mk l0 o =>
    rw [hl] at h
    cases o with
    | ok u =>
      cases u
      simp only at h
      cases hs : stdSort sort sortWithS l0 with
      | ok l1 =>
        rw [hs] at h
        simp only [Prod.mk.injEq, Out.ok.injEq] at h
        obtain ⟨h1, rfl⟩ := h
        obtain ⟨p1, p2⟩ := stdSort_ok hsort hs
        refine ⟨h1.symm, p2, fun x => ?_⟩
        rw [p1.mem_iff, loop_mem hl x]
        simp [Traj.make]
      | throw w => rw [hs] at h; injection h with _ h; cases h
      | ub w => rw [hs] at h; injection h with _ h; cases h
      | diverge => rw [hs] at h; injection h with _ h; cases h
    | throw w => injection h with _ h; cases h
    | ub w => injection h with _ h; cases h
    | diverge => injection h with _ h; cases h

/-! ## Calls -/

/-- the trajectory after a history of calls, most recent first -/
def after (A : Arith) (env : Env) (t : Traj) : List AddOp → Traj
  | [] => t
  | op :: h => (Rnd.step A env (after A env t h) op).1

theorem after_append (env : Env) (t : Traj) (op : AddOp) : ∀ l : List AddOp, after A env t (l ++ [op]) = after A env (Rnd.step A env t op).1 l
  | [] => rfl
  | o :: l => by simp only [List.cons_append, after, after_append env t op l]

/-- the density of the material on both sides is below the number next to 1e-6 -/
def Empty (fl : ℝ → ℝ) (surf : Surface) : Prop := surf.innerMaterial.density < lit fl 1e-6 ∧ surf.outerMaterial.density < lit fl 1e-6

/-- the calls for a list of crossed surfaces -/
inductive Serves (A : Arith) (hits : List (Option TrkHit)) (oneD : Surface → Bool) : List Surface → List AddOp → Prop
  | nil : Serves A hits oneD [] []
  | hit {surf l ops h pos prec} (hh : LastHit hits (toInt surf.id) h) (hr : Rnd.getHitInfo A h (oneD surf) = .ok (pos, prec)) (hl : Serves A hits oneD l ops) :
      Serves A hits oneD (surf :: l) (.measurement pos prec surf h.addr true :: ops)
  | scatterer {surf l ops} (hh : NoHit hits (toInt surf.id)) (he : ¬ Empty A.fl surf) (hl : Serves A hits oneD l ops) :
      Serves A hits oneD (surf :: l) (.scatterer surf :: ops)
  | skip {surf l ops} (hh : NoHit hits (toInt surf.id)) (he : Empty A.fl surf) (hl : Serves A hits oneD l ops) :
      Serves A hits oneD (surf :: l) ops

theorem addAll_ok {env : Env} {oneD : Surface → Bool} {hits : List (Option TrkHit)} {m : ℤ → Option TrkHit}
    (hm : fillMap (fun _ => none) hits = .ok m) {L : List (Dbl × Surface)} {t t' : Traj} (h : Rnd.addAll A env oneD m t L = .ok t') :
    ∃ ops, Serves A hits oneD (L.map Prod.snd) ops ∧ t' = after A env t ops.reverse := by
  have hspec := (fillMap_spec hm).2
  induction L generalizing t with
  | nil =>
    injection h with h
    exact ⟨[], .nil, h.symm⟩
  | cons x L ih =>
    obtain ⟨s, surf⟩ := x
    rw [Rnd.addAll] at h
    obtain ⟨o, h1, h⟩ := Out.bind_eq_ok.mp h
    have key : (∃ h pos prec, LastHit hits (toInt surf.id) h ∧ Rnd.getHitInfo A h (oneD surf) = .ok (pos, prec) ∧
          o = some (.measurement pos prec surf h.addr true)) ∨
        (NoHit hits (toInt surf.id) ∧ ¬ Empty A.fl surf ∧ o = some (.scatterer surf)) ∨
        (NoHit hits (toInt surf.id) ∧ Empty A.fl surf ∧ o = none) := by
      unfold Rnd.callFor at h1
      rcases hspec (toInt surf.id) with ⟨x, hx, e⟩ | ⟨hn, e⟩
      · left
        rw [e] at h1
        dsimp only at h1
        obtain ⟨⟨pos, prec⟩, h2, h3⟩ := Out.bind_eq_ok.mp h1
        injection h3 with h3
        exact ⟨x, pos, prec, hx, h2, h3.symm⟩
      · right
        rw [e] at h1
        dsimp only at h1
        by_cases hc : surf.innerMaterial.density < lit A.fl 1e-6 ∧ surf.outerMaterial.density < lit A.fl 1e-6
        · rw [cif_pos hc] at h1
          injection h1 with h1
          exact Or.inr ⟨hn, hc, h1.symm⟩
        · rw [cif_neg hc] at h1
          injection h1 with h1
          exact Or.inl ⟨hn, hc, h1.symm⟩
    rcases key with ⟨x, pos, prec, hx, hr, rfl⟩ | ⟨hn, he, rfl⟩ | ⟨hn, he, rfl⟩
    · dsimp only at h
      obtain ⟨b, -, h⟩ := Out.bind_eq_ok.mp h
      obtain ⟨ops, h5, h6⟩ := ih h
      exact ⟨_, .hit hx hr h5, by rw [h6, List.reverse_cons, after_append]⟩
    · dsimp only at h
      obtain ⟨b, -, h⟩ := Out.bind_eq_ok.mp h
      obtain ⟨ops, h5, h6⟩ := ih h
      exact ⟨_, .scatterer hn he h5, by rw [h6, List.reverse_cons, after_append]⟩
    · dsimp only at h
      obtain ⟨ops, h5, h6⟩ := ih h
      exact ⟨_, .skip hn he h5, h6⟩

/-! ## Elements -/

theorem makeElement_ok {arc : Dbl} {tp : TP} {s : Surface} {dirs : List V3} {prec res : List Dbl} {frame : V3 × V3} {id : ℕ} {sc me : Bool} {e : Element}
    (h : Rnd.makeElement A.fl arc tp s dirs prec res frame id sc me = .ok e) :
    ∃ proj, e = ⟨arc, tp, none, some s, me, some dirs, if prec.length = 1 then prec ++ [0] else prec, res, some frame, some proj, sc, id⟩ := by
  unfold Rnd.makeElement at h
  obtain ⟨proj, -, h⟩ := Out.bind_eq_ok.mp h
  injection h with h
  exact ⟨proj, h.symm⟩

theorem measurement_elem {env : Env} {mass : Dbl} {back : Element} {p : V3} {prec : List Dbl} {s : Surface} {id : ℕ} {sc : Bool} {e : Element}
    (hp : prec ≠ []) (h : Rnd.measurementElement A.fl A.lm A.at2 A.asn A.atn A.lg A.mm env mass back p prec s id sc = .ok (some e)) :
    ElemOk e ∧ e.surface = some s := by
  unfold Rnd.measurementElement at h
  obtain ⟨hit, -, h⟩ := Out.bind_eq_ok.mp h
  split_ifs at h with hf
  · obtain ⟨⟨q, w⟩, -, h⟩ := Out.bind_eq_ok.mp h
    dsimp only at h
    split at h
    · cases h
    · rename_i energy _
      obtain ⟨e', h1, h⟩ := Out.bind_eq_ok.mp h
      injection h with h
      injection h with h
      subst h
      obtain ⟨proj, rfl⟩ := makeElement_ok h1
      refine ⟨⟨fun _ => ?_, ?_⟩, rfl⟩
      · have hpad : ∀ l : List Dbl, l ≠ [] → ∃ p0 p1 l', (if l.length = 1 then l ++ [0] else l) = p0 :: p1 :: l' := by
          intro l hl
          match l, hl with
          | [a], _ => exact ⟨a, 0, [], rfl⟩
          | a :: b :: l, _ => exact ⟨a, b, l, by rw [if_neg (by simp)]⟩
        have hne : ∀ q, Rnd.measurementPrecision A.fl prec sc q ≠ [] := by
          intro q
          unfold Rnd.measurementPrecision
          cases sc
          · exact hp
          · simp
        obtain ⟨p0, p1, l', hl⟩ := hpad _ (hne _)
        exact ⟨_, _, _, _, _, p0, p1, l', rfl, rfl, rfl, hl⟩
      · rintro (rfl : sc = true)
        simp only [Rnd.measurementPrecision, if_true]
        rw [if_neg (by simp)]
        exact ⟨prec, _, 0, 0, by rw [List.append_assoc, List.append_assoc]; rfl⟩
  · cases h

theorem scatterer_elem {env : Env} {mass : Dbl} {back : Element} {s : Surface} {e : Element}
    (h : Rnd.scattererElement A.fl A.lm A.at2 A.asn A.atn A.lg A.mm env mass back s = .ok (some e)) : ElemOk e ∧ e.surface = some s := by
  unfold Rnd.scattererElement at h
  obtain ⟨hit, -, h⟩ := Out.bind_eq_ok.mp h
  split_ifs at h with hf
  · obtain ⟨⟨q, w⟩, -, h⟩ := Out.bind_eq_ok.mp h
    dsimp only at h
    split at h
    · cases h
    · rename_i energy _
      obtain ⟨e', h1, h⟩ := Out.bind_eq_ok.mp h
      injection h with h
      injection h with h
      subst h
      obtain ⟨proj, rfl⟩ := makeElement_ok h1
      exact ⟨⟨fun h => (by cases h), fun _ => ⟨[], _, _, _, rfl⟩⟩, rfl⟩
  · cases h

/-- what is known about the elements: they can be handed to the fit, and only the start element has no surface -/
def Known (A : Arith) (tp : TP) (e : Element) : Prop :=
  ElemOk e ∧ (e.surface = none → e = Element.start (Rnd.calculateSfromXY A.fl A.lm A.at2 0 0 tp.hp tp.rp) tp 0)

theorem withStart_known {tp : TP} {t : Traj} (ht : t.ref = tp) (h : ∀ e ∈ t.elems, Known A tp e) :
    (Rnd.withStart A.fl A.lm A.at2 t).ref = tp ∧ ∀ e ∈ (Rnd.withStart A.fl A.lm A.at2 t).elems, Known A tp e := by
  unfold Rnd.withStart
  by_cases h0 : t.elems = []
  · rw [if_pos h0]
    refine ⟨ht, ?_⟩
    intro e he
    simp only [Rnd.addElement, h0, List.nil_append, List.mem_singleton] at he
    subst he
    refine ⟨⟨fun h => (by cases h), fun h => (by cases h)⟩, fun _ => ?_⟩
    rw [ht]
    rfl
  · rw [if_neg h0]
    exact ⟨ht, h⟩

theorem append_known {tp : TP} {t : Traj} (ht : t.ref = tp) (h : ∀ e ∈ t.elems, Known A tp e) {o : Out (Option Element)} (ho : ∀ e, o = .ok (some e) → Known A tp e) :
    (t.append o).1.ref = tp ∧ ∀ e ∈ (t.append o).1.elems, Known A tp e := by
  rcases append_cases t o with ⟨e, h1, h2⟩ | ⟨h1, -⟩
  · rw [h2]
    refine ⟨ht, fun x hx => ?_⟩
    simp only [List.mem_append, List.mem_singleton] at hx
    rcases hx with hx | rfl
    · exact h x hx
    · exact ho x h1
  · rw [h1]
    exact ⟨ht, h⟩

theorem step_known {env : Env} {tp : TP} {t : Traj} (ht : t.ref = tp) {op : AddOp} (hp : PrecGiven op) (h : ∀ e ∈ t.elems, Known A tp e) :
    (Rnd.step A env t op).1.ref = tp ∧ ∀ e ∈ (Rnd.step A env t op).1.elems, Known A tp e := by
  obtain ⟨w1, w2⟩ := withStart_known ht h
  cases op with
  | setMass m => exact ⟨ht, h⟩
  | scatterer s =>
    simp only [Rnd.step, Rnd.addScatterer]
    cases hb : (Rnd.withStart A.fl A.lm A.at2 t).elems.getLast? with
    | none => exact ⟨w1, w2⟩
    | some back =>
      refine append_known w1 w2 fun e he => ?_
      obtain ⟨e1, e2⟩ := scatterer_elem he
      exact ⟨e1, fun hn => by rw [e2] at hn; cases hn⟩
  | measurement p pr s id sc =>
    simp only [Rnd.step, Rnd.addMeasurement]
    cases hb : (Rnd.withStart A.fl A.lm A.at2 t).elems.getLast? with
    | none => exact ⟨w1, w2⟩
    | some back =>
      refine append_known w1 w2 fun e he => ?_
      obtain ⟨e1, e2⟩ := measurement_elem hp he
      exact ⟨e1, fun hn => by rw [e2] at hn; cases hn⟩

theorem after_known {env : Env} {tp : TP} {t : Traj} (ht : t.ref = tp) (h : ∀ e ∈ t.elems, Known A tp e) : ∀ {ops : List AddOp}, (∀ op ∈ ops, PrecGiven op) →
    (after A env t ops).ref = tp ∧ ∀ e ∈ (after A env t ops).elems, Known A tp e
  | [], _ => ⟨ht, h⟩
  | op :: ops, hp => by
    obtain ⟨i1, i2⟩ := after_known (env := env) ht h (ops := ops) fun o ho => hp o (by simp [ho])
    exact step_known i1 (hp op (by simp)) i2

theorem known_noJac {tp : TP} {e e' : Element} (h : noJac e' = noJac e) (he : Known A tp e) : ElemOk e' ∧ (e'.surface = none → e'.tp = tp ∧
    e'.arc = Rnd.calculateSfromXY A.fl A.lm A.at2 0 0 tp.hp tp.rp) := by
  refine ⟨elemOk_noJac h he.1, fun hs => ?_⟩
  have h1 : e'.surface = e.surface := (by have := congrArg Element.surface h; exact this)
  have h2 : e'.tp = e.tp := (by have := congrArg Element.tp h; exact this)
  have h3 : e'.arc = e.arc := (by have := congrArg Element.arc h; exact this)
  rw [h2, h3, he.2 (by rw [← h1, hs])]
  exact ⟨rfl, rfl⟩

/-! ## `prepareForFitting` and the points of the fit -/

theorem prepareLoop_ok {env : Env} {t : Traj} {prevS : Dbl} {l l' : List Element}
    (h : Rnd.prepareLoop A.fl A.lm A.at2 A.asn A.atn A.lg env t prevS l = .ok l') : l'.map noJac = l.map noJac ∧ ∀ e ∈ l', e.jac.isSome = true := by
  induction l generalizing prevS l' with
  | nil => injection h with h; subst h; exact ⟨rfl, by simp⟩
  | cons e l ih =>
    unfold Rnd.prepareLoop at h
    simp only [Out.bind_eq_ok] at h
    obtain ⟨j, h1, l1, h2, h3⟩ := h
    injection h3 with h3
    subst h3
    obtain ⟨q1, q2⟩ := ih h2
    refine ⟨by simp [q1, noJac], fun x hx => ?_⟩
    rcases List.mem_cons.1 hx with rfl | hx
    · rfl
    · exact q2 x hx

theorem prepare_ok {env : Env} {sort : List Element → List Element} (hsort : IsStdSort compareElements sort) {t t' : Traj}
    (h : Rnd.prepareForFitting A.fl A.lm A.at2 A.asn A.atn A.lg env sort t = .ok t') :
    (t'.elems.map noJac).Perm (t.elems.map noJac) ∧ t'.elems.Pairwise (fun a b => ¬ b.arc < a.arc) ∧ (∀ e ∈ t'.elems, e.jac.isSome = true) ∧ t'.elems ≠ [] := by
  unfold Rnd.prepareForFitting at h
  rw [Out.bind_eq_ok] at h
  obtain ⟨l, h1, h⟩ := h
  obtain ⟨p1, p2⟩ := stdSort_ok hsort h1
  cases l with
  | nil => cases h
  | cons e l =>
    simp only [Out.bind_eq_ok] at h
    obtain ⟨l', h2, h⟩ := h
    injection h with h
    subst h
    obtain ⟨q1, q2⟩ := prepareLoop_ok h2
    have hmap : (({ e with jac := some (M5.unit M5.zero) } : Element) :: l').map noJac = (e :: l).map noJac := by
      simp [q1, noJac]
    refine ⟨?_, ?_, fun x hx => ?_, by simp⟩
    · rw [hmap]; exact p1.map noJac
    · have : ∀ m : List Element, (m.Pairwise (fun a b => ¬ b.arc < a.arc)) ↔
          ((m.map noJac).Pairwise (fun a b => ¬ b.arc < a.arc)) := by
        intro m; rw [List.pairwise_map]; rfl
      rw [this, hmap, ← this]
      exact p2
    · rcases List.mem_cons.1 hx with rfl | hx
      · rfl
      · exact q2 x hx

theorem gblPoint_ok {fl : ℝ → ℝ} {e : Element} (he : ElemOk e) {j : M5} (hj : e.jac = some j) :
    ∃ p, Rnd.gblPoint fl e = .ok p ∧ p.jac = j ∧ (p.meas.isSome = e.measurement) ∧ (p.scat.isSome = e.scatterer) := by
  have hs : e.scatterer = true → ∃ s, Rnd.gblScatterer fl e = .ok s := by
    intro h
    obtain ⟨l, q, a, b, hp⟩ := he.scat h
    unfold Rnd.gblScatterer
    simp [hp, List.getElem?_append]
  have hm : e.measurement = true → ∃ s, gblMeasurement e = .ok s := by
    intro h
    obtain ⟨u, v, proj, r0, r1, p0, p1, l, h1, h2, h3, h4⟩ := he.meas h
    unfold gblMeasurement
    rw [h1, h2, h3, h4]
    exact ⟨_, rfl⟩
  unfold Rnd.gblPoint
  rw [hj]
  by_cases h1 : e.measurement = true <;> by_cases h2 : e.scatterer = true
  · obtain ⟨m, em⟩ := hm h1
    obtain ⟨s, es⟩ := hs h2
    simp only [h1, h2, if_true, em, es, Out.ok_bind, Out.pure_eq]
    exact ⟨_, rfl, rfl, rfl, rfl⟩
  · obtain ⟨m, em⟩ := hm h1
    simp only [h1, h2, if_true, em, Out.ok_bind, Out.pure_eq, Bool.false_eq_true, if_false]
    exact ⟨_, rfl, rfl, rfl, rfl⟩
  · obtain ⟨s, es⟩ := hs h2
    simp only [h1, h2, if_true, es, Out.ok_bind, Out.pure_eq, Bool.false_eq_true, if_false]
    exact ⟨_, rfl, rfl, rfl, rfl⟩
  · simp only [h1, h2, Out.ok_bind, Out.pure_eq, Bool.false_eq_true, if_false]
    exact ⟨_, rfl, rfl, rfl, rfl⟩

theorem gblPoints_ok {fl : ℝ → ℝ} {l : List Element} (h : ∀ e ∈ l, ElemOk e ∧ e.jac.isSome = true) :
    ∃ ps, Rnd.gblPoints fl l = .ok ps ∧ ps.map (fun p => some p.jac) = l.map Element.jac ∧
      ps.map (fun p => p.meas.isSome) = l.map Element.measurement ∧ ps.map (fun p => p.scat.isSome) = l.map Element.scatterer := by
  induction l with
  | nil => exact ⟨[], rfl, rfl, rfl, rfl⟩
  | cons e l ih =>
    obtain ⟨h1, h2⟩ := h e (by simp)
    obtain ⟨j, hj⟩ := Option.isSome_iff_exists.mp h2
    obtain ⟨p, e1, e2, e3, e4⟩ := gblPoint_ok (fl := fl) h1 hj
    obtain ⟨ps, f1, f2, f3, f4⟩ := ih (fun e' he => h e' (by simp [he]))
    refine ⟨p :: ps, ?_, ?_, ?_, ?_⟩
    · simp only [Rnd.gblPoints, e1, f1, Out.ok_bind, Out.pure_eq]
    · simp [e2, f2, hj]
    · simp [e3, f3]
    · simp [e4, f4]

end Rnd

end Verif
