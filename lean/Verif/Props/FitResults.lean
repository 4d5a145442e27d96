import Verif.Model.Gbl
import Verif.Lemmas.Containers
import Verif.Props.Curvilinear
import Mathlib.LinearAlgebra.Matrix.PosDef
import Mathlib.Algebra.Order.Star.Real

/-!
# C54, C55, C56: results of a fit
-/

open Classical

noncomputable section

namespace Verif

open Dbl World

/-! ## C54 -/

/-- addresses in the table of results are in use, belong to one label each, and nothing is stored beyond the next address -/
structure Inv (w : World) : Prop where
  used : ∀ l p, w.gi.results l = some p → p < w.next ∧ ∃ r, w.heap p = some r
  inj : ∀ l l' p, w.gi.results l = some p → w.gi.results l' = some p → l = l'
  fresh : ∀ p, w.next ≤ p → w.heap p = none

theorem inv_init (trajs : ℕ → Option (Traj × (V3 → V3))) : Inv (init trajs) :=
  ⟨fun _ _ h => (by cases h), fun _ _ _ h => (by cases h), fun _ _ => rfl⟩

theorem inv_clear {w : World} (h : Inv w) : Inv w.clear := by
  refine ⟨fun _ _ h => (by cases h), fun _ _ _ h => (by cases h), fun p hp => ?_⟩
  show (if _ then none else w.heap p) = none
  rw [h.fresh p hp, ite_self]

theorem fit_cases (gbl : Fitter) (w : World) (i : ℕ) :
    (w.fit gbl i).1.heap = w.clear.heap ∧ (w.fit gbl i).1.next = w.next ∧ (w.fit gbl i).1.trajs = w.trajs ∧
      ∀ l, (w.fit gbl i).1.gi.results l = none := by
  unfold fit
  have e : w.clear.trajs i = w.trajs i := rfl
  dsimp only
  rw [e]
  cases w.trajs i with
  | none => exact ⟨rfl, rfl, rfl, fun _ => rfl⟩
  | some tf =>
    obtain ⟨t, field⟩ := tf
    dsimp only
    cases gblPoints t.elems <;> exact ⟨rfl, rfl, rfl, fun _ => rfl⟩

theorem inv_fit (gbl : Fitter) {w : World} (h : Inv w) (i : ℕ) : Inv (w.fit gbl i).1 := by
  obtain ⟨h1, h2, -, h4⟩ := fit_cases gbl w i
  have hc := inv_clear h
  refine ⟨fun l p hp => ?_, fun l l' p hp => ?_, fun p hp => ?_⟩
  · rw [h4] at hp; cases hp
  · rw [h4] at hp; cases hp
  · rw [h1]; rw [h2] at hp; exact hc.fresh p hp

/-- what asking for a result does -/
theorem getResults_cases (w : World) (label : ℤ) :
    (∃ p, w.gi.results label = some p ∧ w.getResults label = (w, .ok p)) ∨
    (w.gi.results label = none ∧ ∃ i f t field r, w.gi.traj = some i ∧ w.gi.fitted = some f ∧ w.trajs i = some (t, field) ∧
      fillContent w.gi f t field label = .ok r ∧
      w.getResults label = ({ w with
        heap := fun p => if p = w.next then some r else w.heap p
        next := w.next + 1
        gi := { w.gi with results := fun l => if l = label then some w.next else w.gi.results l } }, .ok w.next)) ∨
    ((w.getResults label).1 = w ∧ ∀ p, (w.getResults label).2 ≠ .ok p) := by
  unfold getResults
  cases h1 : w.gi.results label with
  | some p => left; exact ⟨p, rfl, rfl⟩
  | none =>
    right
    cases h2 : w.gi.traj with
    | none => right; exact ⟨rfl, fun p h => by cases h⟩
    | some i =>
      cases h3 : w.gi.fitted with
      | none => right; exact ⟨rfl, fun p h => by cases h⟩
      | some f =>
        dsimp only
        cases h4 : w.trajs i with
        | none => right; exact ⟨rfl, fun p h => by cases h⟩
        | some tf =>
          obtain ⟨t, field⟩ := tf
          dsimp only
          cases h5 : fillContent w.gi f t field label with
          | ok r => left; exact ⟨rfl, i, f, t, field, r, rfl, rfl, h4, h5, rfl⟩
          | throw m => right; exact ⟨rfl, fun p h => by cases h⟩
          | ub m => right; exact ⟨rfl, fun p h => by cases h⟩
          | diverge => right; exact ⟨rfl, fun p h => by cases h⟩

theorem inv_getResults {w : World} (h : Inv w) (label : ℤ) : Inv (w.getResults label).1 := by
  rcases getResults_cases w label with ⟨p, -, e⟩ | ⟨hn, i, f, t, field, r, -, -, -, -, e⟩ | ⟨e, -⟩
  · rw [e]; exact h
  · rw [e]
    refine ⟨?_, ?_, ?_⟩
    · intro l p hp
      dsimp only at hp ⊢
      by_cases hl : l = label
      · rw [if_pos hl] at hp
        injection hp with hp
        subst hp
        exact ⟨Nat.lt_succ_self _, r, by rw [if_pos rfl]⟩
      · rw [if_neg hl] at hp
        obtain ⟨h1, h2⟩ := h.used l p hp
        refine ⟨Nat.lt_succ_of_lt h1, ?_⟩
        rw [if_neg (Nat.ne_of_lt h1)]
        exact h2
    · intro l l' p hp hp'
      dsimp only at hp hp'
      by_cases hl : l = label <;> by_cases hl' : l' = label
      · rw [hl, hl']
      · rw [if_pos hl] at hp
        rw [if_neg hl'] at hp'
        injection hp with hp
        have := (h.used l' p hp').1
        omega
      · rw [if_neg hl] at hp
        rw [if_pos hl'] at hp'
        injection hp' with hp'
        have := (h.used l p hp).1
        omega
      · rw [if_neg hl] at hp
        rw [if_neg hl'] at hp'
        exact h.inj l l' p hp hp'
    · intro p hp
      dsimp only at hp ⊢
      rw [if_neg (by omega)]
      exact h.fresh p (by omega)
  · rw [e]; exact h

theorem inv_step (gbl : Fitter) {w : World} (h : Inv w) (op : Op) : Inv (w.step gbl op) := by
  cases op with
  | fit i => exact inv_fit gbl h i
  | results l => exact inv_getResults h l
  | setTraj i t => exact ⟨h.used, h.inj, h.fresh⟩

theorem inv_run (gbl : Fitter) {w : World} (h : Inv w) (ops : List Op) : Inv (w.run gbl ops) := by
  unfold run
  induction ops generalizing w with
  | nil => exact h
  | cons op ops ih => exact ih (inv_step gbl h op)

/-- no call of `fit` -/
def NoFit (ops : List Op) : Prop := ∀ op ∈ ops, ∀ i, op ≠ .fit i

theorem results_stay (gbl : Fitter) {w : World} (h : Inv w) (ops : List Op) (hn : NoFit ops) :
    (∀ l p, w.gi.results l = some p → (w.run gbl ops).gi.results l = some p) ∧
    (∀ p, p < w.next → (w.run gbl ops).heap p = w.heap p) ∧ w.next ≤ (w.run gbl ops).next ∧
    (w.run gbl ops).gi.fitted = w.gi.fitted ∧ (w.run gbl ops).gi.traj = w.gi.traj ∧ (w.run gbl ops).gi.chi2 = w.gi.chi2 ∧
    (w.run gbl ops).gi.ndf = w.gi.ndf ∧ (w.run gbl ops).gi.lostWeight = w.gi.lostWeight := by
  unfold run
  induction ops generalizing w with
  | nil => exact ⟨fun _ _ h => h, fun _ _ => rfl, le_refl _, rfl, rfl, rfl, rfl, rfl⟩
  | cons op ops ih =>
    obtain ⟨a1, a2, a3, a4, a5, a6, a7, a8⟩ := ih (inv_step gbl h op) (fun o ho => hn o (by simp [ho]))
    have key : (∀ l p, w.gi.results l = some p → (w.step gbl op).gi.results l = some p) ∧
        (∀ p, p < w.next → (w.step gbl op).heap p = w.heap p) ∧ w.next ≤ (w.step gbl op).next ∧
        (w.step gbl op).gi.fitted = w.gi.fitted ∧ (w.step gbl op).gi.traj = w.gi.traj ∧ (w.step gbl op).gi.chi2 = w.gi.chi2 ∧
        (w.step gbl op).gi.ndf = w.gi.ndf ∧ (w.step gbl op).gi.lostWeight = w.gi.lostWeight := by
      cases op with
      | fit i => exact absurd rfl (hn (.fit i) (by simp) i)
      | results label =>
        have hst : w.step gbl (.results label) = (w.getResults label).1 := rfl
        rw [hst]
        rcases getResults_cases w label with ⟨p, -, e⟩ | ⟨hnone, i, f, t, field, r, -, -, -, -, e⟩ | ⟨e, -⟩
        · rw [e]; exact ⟨fun _ _ h => h, fun _ _ => rfl, le_refl _, rfl, rfl, rfl, rfl, rfl⟩
        · rw [e]
          dsimp only
          refine ⟨?_, ?_, Nat.le_succ _, rfl, rfl, rfl, rfl, rfl⟩
          · intro l p hp
            rw [if_neg]
            · exact hp
            · rintro rfl
              rw [hnone] at hp
              cases hp
          · intro p hp
            rw [if_neg (Nat.ne_of_lt hp)]
        · rw [e]; exact ⟨fun _ _ h => h, fun _ _ => rfl, le_refl _, rfl, rfl, rfl, rfl, rfl⟩
      | setTraj i t => exact ⟨fun _ _ h => h, fun _ _ => rfl, le_refl _, rfl, rfl, rfl, rfl, rfl⟩
    obtain ⟨b1, b2, b3, b4, b5, b6, b7, b8⟩ := key
    refine ⟨fun l p hp => a1 l p (b1 l p hp), fun p hp => (a2 p (lt_of_lt_of_le hp b3)).trans (b2 p hp), b3.trans a3,
      a4.trans b4, a5.trans b5, a6.trans b6, a7.trans b7, a8.trans b8⟩

/-- C54: until the next fit, asking again for the result at a label gives the same object, whatever happens in between; its
content has not changed, and no object is created. -/
theorem C54_same (gbl : Fitter) (trajs : ℕ → Option (Traj × (V3 → V3))) (before : List Op) (label : ℤ) (between : List Op)
    (hn : NoFit between) {w1 : World} {p : ℕ} (h1 : ((init trajs).run gbl before).getResults label = (w1, .ok p)) :
    (w1.run gbl between).getResults label = (w1.run gbl between, .ok p) ∧
    (w1.run gbl between).heap p = w1.heap p ∧ ∃ r, w1.heap p = some r := by
  have hi := inv_run gbl (inv_init trajs) before
  set w := (init trajs).run gbl before
  have hi1 : Inv w1 := by have := inv_getResults hi label; rwa [h1] at this
  have hr : w1.gi.results label = some p := by
    rcases getResults_cases w label with ⟨q, hq, e⟩ | ⟨-, i, f, t, field, r, -, -, -, -, e⟩ | ⟨-, e⟩
    · rw [h1] at e
      injection e with e1 e2
      injection e2 with e2
      rw [e1, e2]; exact hq
    · rw [h1] at e
      injection e with e1 e2
      injection e2 with e2
      rw [e1, e2]
      dsimp only
      rw [if_pos rfl]
    · rw [h1] at e
      exact absurd rfl (e p)
  obtain ⟨hlt, r, hr'⟩ := hi1.used label p hr
  obtain ⟨a1, a2, -⟩ := results_stay gbl hi1 between hn
  refine ⟨?_, a2 p hlt, r, hr'⟩
  unfold getResults
  rw [a1 label p hr]

/-- C54: two labels never share an object. -/
theorem C54_distinct (gbl : Fitter) (trajs : ℕ → Option (Traj × (V3 → V3))) (before : List Op) (l l' : ℤ) (between : List Op)
    (hn : NoFit between) {w1 w2 : World} {p p' : ℕ} (h1 : ((init trajs).run gbl before).getResults l = (w1, .ok p))
    (h2 : (w1.run gbl between).getResults l' = (w2, .ok p')) (hl : l ≠ l') : p ≠ p' := by
  have hi1 : Inv w1 := by
    have := inv_getResults (inv_run gbl (inv_init trajs) before) l
    rwa [h1] at this
  have hi2 : Inv w2 := by
    have := inv_getResults (inv_run gbl hi1 between) l'
    rwa [h2] at this
  have key : ∀ {w w' : World} {l : ℤ} {p : ℕ}, w.getResults l = (w', .ok p) → w'.gi.results l = some p := by
    intro w w' l p h
    rcases getResults_cases w l with ⟨q, hq, e⟩ | ⟨-, i, f, t, field, r, -, -, -, -, e⟩ | ⟨-, e⟩
    · rw [h] at e
      injection e with e1 e2
      injection e2 with e2
      rw [e1, e2]; exact hq
    · rw [h] at e
      injection e with e1 e2
      injection e2 with e2
      rw [e1, e2]
      dsimp only
      rw [if_pos rfl]
    · rw [h] at e
      exact absurd rfl (e p)
  have r1 := (results_stay gbl hi1 (between ++ [.results l']) (by
    intro op ho i
    rcases List.mem_append.mp ho with ho | ho
    · exact hn op ho i
    · simp only [List.mem_singleton] at ho; subst ho; simp)).1 l p (key h1)
  have e : w1.run gbl (between ++ [.results l']) = w2 := by
    unfold run at h2 ⊢
    rw [List.foldl_append]
    show ((List.foldl (step gbl) w1 between).getResults l').1 = w2
    rw [h2]
  rw [e] at r1
  rintro rfl
  exact hl (hi2.inj l l' p r1 (key h2))

/-- C54: a new fit destroys the result objects of the earlier one and no others. -/
theorem C54_cleared (gbl : Fitter) (w : World) (i : ℕ) :
    (∀ l, (w.fit gbl i).1.gi.results l = none) ∧
    (∀ p, (∃ l, w.gi.results l = some p) → (w.fit gbl i).1.heap p = none) ∧
    (∀ p, (¬ ∃ l, w.gi.results l = some p) → (w.fit gbl i).1.heap p = w.heap p) := by
  obtain ⟨h1, -, -, h4⟩ := fit_cases gbl w i
  refine ⟨h4, fun p hp => ?_, fun p hp => ?_⟩
  · rw [h1]; exact if_pos hp
  · rw [h1]; exact if_neg hp

/-- the content of a result object: numbers from the fit `f`, parameters from the element of `t` with the given number,
corrected by the corrections of the fit at the label -/
structure ResultOf (f : GblFit) (t : Traj) (field : V3 → V3) (label : ℤ) (r : FitResults) : Prop where
  chi2 : r.chisquare = f.chi2
  /-- the number itself if it is not negative and fits into an `unsigned int` -/
  ndf : (r.ndf : ℤ) = f.ndf % 2 ^ 32
  valid : r.valid = true
  lost : r.lostweight = f.lostWeight
  params : ∃ (n : ℕ) (e : Element), label = n ∧ t.elems[n]? = some e ∧ r.estParams.rp = e.tp.rp ∧
    ∃ J, J = curvilinearToL3Jacobian e.tp.hp (field e.tp.rp) ∧
      (∀ c C, f.results label = (0, c, C) → r.estParams.hp = V5.add e.tp.hp (M5.mulVec J c)) ∧
      (∀ err c C, f.results label = (err, c, C) → err ≠ 0 → r.estParams.hp = V5.add e.tp.hp (M5.mulVec J V5.zero)) ∧
      r.estParams.cov = M5.mul (M5.mul J (f.results label).2.2) (M5.transpose J)

theorem resultOf_fill {gi : GblState} {f : GblFit} {t : Traj} {field : V3 → V3} {label : ℤ} {r : FitResults}
    (h1 : gi.chi2 = f.chi2) (h2 : gi.ndf = f.ndf) (h3 : gi.lostWeight = f.lostWeight)
    (h : fillContent gi f t field label = .ok r) : ResultOf f t field label r := by
  unfold fillContent at h
  dsimp only at h
  by_cases hl : label < 0
  · rw [if_pos hl] at h; cases h
  · rw [if_neg hl] at h
    cases he : t.elems[label.toNat]? with
    | none => rw [he] at h; cases h
    | some e =>
      rw [he] at h
      injection h with h
      subst h
      refine ⟨h1, ?_, rfl, h3, label.toNat, e, by omega, he, rfl, _, rfl, ?_, ?_, rfl⟩
      · rw [h2]
        show (((f.ndf % 2 ^ 32).toNat : ℕ) : ℤ) = f.ndf % 2 ^ 32
        rw [Int.toNat_of_nonneg (Int.emod_nonneg _ (by norm_num))]
      · intro c C hc
        simp [hc]
      · intro err c C hc herr
        simp [hc, herr]

theorem fit_ok (gbl : Fitter) (w : World) (i : ℕ) {t : Traj} {field : V3 → V3} {ps : List GblPoint}
    (ht : w.trajs i = some (t, field)) (hps : gblPoints t.elems = .ok ps) :
    (w.fit gbl i).2 = .ok (decide ((gbl ps).ret = 0)) ∧ (w.fit gbl i).1.gi.fitted = some (gbl ps) ∧
    (w.fit gbl i).1.gi.traj = some i ∧ (w.fit gbl i).1.gi.chi2 = (gbl ps).chi2 ∧ (w.fit gbl i).1.gi.ndf = (gbl ps).ndf ∧
    (w.fit gbl i).1.gi.lostWeight = (gbl ps).lostWeight ∧ (w.fit gbl i).1.trajs = w.trajs := by
  have e : w.clear.trajs i = some (t, field) := ht
  unfold fit
  simp only [e, hps]
  exact ⟨trivial, trivial, trivial, trivial, trivial, trivial, rfl⟩

/-- the stored results come from the fit `f` of the trajectory `i`; if `t` is given, the trajectory is still `t` -/
structure FromFit (f : GblFit) (i : ℕ) (same : Prop) (t : Traj) (field : V3 → V3) (w : World) : Prop where
  fitted : w.gi.fitted = some f
  traj : w.gi.traj = some i
  chi2 : w.gi.chi2 = f.chi2
  ndf : w.gi.ndf = f.ndf
  lost : w.gi.lostWeight = f.lostWeight
  kept : same → w.trajs i = some (t, field)
  entries : ∀ l p, w.gi.results l = some p → ∃ t' field' r, w.heap p = some r ∧ ResultOf f t' field' l r ∧
    (same → t' = t ∧ field' = field)

theorem fromFit_getResults {f : GblFit} {i : ℕ} {same : Prop} {t : Traj} {field : V3 → V3} {w : World} (hi : Inv w)
    (h : FromFit f i same t field w) (label : ℤ) : FromFit f i same t field (w.getResults label).1 := by
  rcases getResults_cases w label with ⟨p, -, e⟩ | ⟨hn, i', f', t', field', r, e1, e2, e3, e4, e⟩ | ⟨e, -⟩
  · rw [e]; exact h
  · rw [e]
    have hi' : i' = i := by have := h.traj; rw [e1] at this; injection this
    have hf' : f' = f := by have := h.fitted; rw [e2] at this; injection this
    subst hi' hf'
    refine ⟨h.fitted, h.traj, h.chi2, h.ndf, h.lost, h.kept, ?_⟩
    intro l p hp
    dsimp only at hp ⊢
    by_cases hl : l = label
    · rw [if_pos hl] at hp
      injection hp with hp
      subst hp hl
      refine ⟨t', field', r, by rw [if_pos rfl], resultOf_fill h.chi2 h.ndf h.lost e4, ?_⟩
      intro hs
      have := h.kept hs
      rw [e3] at this
      injection this with this
      injection this with a b
      exact ⟨a, b⟩
    · rw [if_neg hl] at hp
      obtain ⟨hlt, -⟩ := hi.used l p hp
      obtain ⟨t1, f1, r1, a1, a2, a3⟩ := h.entries l p hp
      exact ⟨t1, f1, r1, by rw [if_neg (Nat.ne_of_lt hlt)]; exact a1, a2, a3⟩
  · rw [e]; exact h

theorem fromFit_run (gbl : Fitter) {f : GblFit} {i : ℕ} {same : Prop} {t : Traj} {field : V3 → V3} {w : World} (hi : Inv w)
    (h : FromFit f i same t field w) (ops : List Op) (hn : NoFit ops) (hs : same → ∀ t'', Op.setTraj i t'' ∉ ops) :
    FromFit f i same t field (w.run gbl ops) := by
  unfold run
  induction ops generalizing w with
  | nil => exact h
  | cons op ops ih =>
    refine ih (inv_step gbl hi op) ?_ (fun o ho => hn o (by simp [ho])) (fun h t'' ht => hs h t'' (by simp [ht]))
    cases op with
    | fit i => exact absurd rfl (hn (.fit i) (by simp) i)
    | results l => exact fromFit_getResults hi h l
    | setTraj k x =>
      refine ⟨h.fitted, h.traj, h.chi2, h.ndf, h.lost, ?_, h.entries⟩
      intro hsame
      have hk : i ≠ k := by
        rintro rfl
        exact hs hsame x (by simp)
      show (if i = k then x else w.trajs i) = _
      rw [if_neg hk]
      exact h.kept hsame

/-- C54, C56: after a fit has returned, a result comes from that fit only, whatever was fitted before.  If the trajectory has not
been changed since the fit, the result is the one for the trajectory that was fitted; otherwise that for the trajectory at
the time the result was first asked for. -/
theorem C54_last_fit (gbl : Fitter) (trajs : ℕ → Option (Traj × (V3 → V3))) (before : List Op) (i : ℕ) {t : Traj} {field : V3 → V3}
    {ps : List GblPoint} (ht : ((init trajs).run gbl before).trajs i = some (t, field)) (hps : gblPoints t.elems = .ok ps)
    (between : List Op) (hn : NoFit between) (label : ℤ) {w1 : World} {p : ℕ}
    (h1 : (((((init trajs).run gbl before).fit gbl i).1).run gbl between).getResults label = (w1, .ok p)) :
    ∃ (t' : Traj) (field' : V3 → V3) (r : FitResults), w1.heap p = some r ∧ ResultOf (gbl ps) t' field' label r ∧
      ((∀ t'', Op.setTraj i t'' ∉ between) → t' = t ∧ field' = field) := by
  have hi := inv_run gbl (inv_init trajs) before
  set w := (init trajs).run gbl before
  obtain ⟨-, b1, b2, b3, b4, b5, b6⟩ := fit_ok gbl w i ht hps
  have hi1 := inv_fit gbl hi i
  have hf : FromFit (gbl ps) i (∀ t'', Op.setTraj i t'' ∉ between) t field (w.fit gbl i).1 :=
    ⟨b1, b2, b3, b4, b5, fun _ => by rw [b6]; exact ht, fun l p hp => by
      rw [(fit_cases gbl w i).2.2.2 l] at hp; cases hp⟩
  have hr := fromFit_run gbl hi1 hf between hn (fun h => h)
  have hi2 := inv_run gbl hi1 between
  have hr' := fromFit_getResults hi2 hr label
  rw [h1] at hr'
  refine hr'.entries label p ?_
  rcases getResults_cases ((w.fit gbl i).1.run gbl between) label with ⟨q, hq, e⟩ | ⟨-, i, f, t, field, r, -, -, -, -, e⟩ | ⟨-, e⟩
  · rw [h1] at e
    injection e with e1 e2
    injection e2 with e2
    dsimp only
    rw [e1, e2]; exact hq
  · rw [h1] at e
    injection e with e1 e2
    injection e2 with e2
    dsimp only
    rw [e1, e2]
    dsimp only
    rw [if_pos rfl]
  · rw [h1] at e
    exact absurd rfl (e p)

/-- C54: after a fit that was left by an exception, or before the first fit, there is no result: asking for one is undefined. -/
theorem C54_no_fit (w : World) (label : ℤ) (h : w.gi.fitted = none) (hr : w.gi.results label = none) :
    ∃ m, w.getResults label = (w, .ub m) := by
  unfold getResults
  rw [hr]
  cases w.gi.traj with
  | none => exact ⟨_, rfl⟩
  | some i => dsimp only; rw [h]; exact ⟨_, rfl⟩

theorem C54_failed_points (gbl : Fitter) (w : World) (i : ℕ) {t : Traj} {field : V3 → V3} {m : String}
    (ht : w.trajs i = some (t, field)) (hps : gblPoints t.elems = .throw m) (label : ℤ) :
    (w.fit gbl i).2 = .throw m ∧ ∃ m', ((w.fit gbl i).1.getResults label).2 = .ub m' := by
  have e : w.clear.trajs i = some (t, field) := ht
  have h1 : (w.fit gbl i).2 = .throw m ∧ (w.fit gbl i).1.gi.fitted = none := by
    unfold fit
    simp only [e, hps]
    exact ⟨trivial, rfl⟩
  refine ⟨h1.1, ?_⟩
  obtain ⟨m', hm⟩ := C54_no_fit (w.fit gbl i).1 label h1.2 ((fit_cases gbl w i).2.2.2 label)
  exact ⟨m', by rw [hm]⟩

/-! ## C55 -/

/-- C55 is false: every result object claims to be valid, also if the fit has failed. -/
theorem C55_always_valid (gi : GblState) (f : GblFit) (t : Traj) (field : V3 → V3) (label : ℤ) {r : FitResults}
    (h : fillContent gi f t field label = .ok r) : r.valid = true := by
  unfold fillContent at h
  dsimp only at h
  by_cases hl : label < 0
  · rw [if_pos hl] at h; cases h
  · rw [if_neg hl] at h
    cases he : t.elems[label.toNat]? with
    | none => rw [he] at h; cases h
    | some e =>
      rw [he] at h
      injection h with h
      subst h
      rfl

/-- a fitter that always fails -/
def failing : Fitter := fun _ => ⟨1, 0, -1, 0, fun _ => (1, V5.zero, M5.zero)⟩

/-- C55 is false, witness: the fit of a trajectory with one element fails, yet the result is marked as valid, and the number
of degrees of freedom, -1, has become 4294967295. -/
theorem C55_false (e : Element) (j : M5) (he : e.jac = some j) (hm : e.measurement = false) (hs : e.scatterer = false) (tp : TP)
    (field : V3 → V3) :
    let w0 := init fun _ => some (⟨tp, [e], [], pionMass⟩, field)
    ∃ r p, (w0.fit failing 0).2 = .ok false ∧ ((w0.fit failing 0).1.getResults 0).2 = .ok p ∧
      ((w0.fit failing 0).1.getResults 0).1.heap p = some r ∧ r.valid = true ∧ r.ndf = 4294967295 := by
  intro w0
  have hps : gblPoints [e] = .ok [⟨j, none, none⟩] := by
    simp [gblPoints, gblPoint, he, hm, hs]
  have ht : w0.trajs 0 = some (⟨tp, [e], [], pionMass⟩, field) := rfl
  obtain ⟨a1, a2, a3, a4, a5, a6, a7⟩ := fit_ok failing w0 0 ht hps
  have hnone := (fit_cases failing w0 0).2.2.2 0
  set w := (w0.fit failing 0).1
  have hf : ∃ r, fillContent w.gi (failing [⟨j, none, none⟩]) ⟨tp, [e], [], pionMass⟩ field 0 = .ok r ∧ r.ndf = 4294967295 := by
    refine ⟨_, rfl, ?_⟩
    show (w.gi.ndf % 2 ^ 32).toNat = _
    rw [a5]
    rfl
  obtain ⟨r, hr, hnd⟩ := hf
  have hv := C55_always_valid _ _ _ _ _ hr
  rcases getResults_cases w 0 with ⟨p, hp, -⟩ | ⟨-, i, f, t, fl, r', b1, b2, b3, b4, e'⟩ | ⟨-, hno⟩
  · rw [hnone] at hp; cases hp
  · have : i = 0 := by rw [a3] at b1; injection b1 with b1; exact b1.symm
    subst this
    have : f = failing [⟨j, none, none⟩] := by rw [a2] at b2; injection b2 with b2; exact b2.symm
    subst this
    rw [a7, ht] at b3
    injection b3 with b3
    injection b3 with b3 b3'
    subst b3 b3'
    rw [hr] at b4
    injection b4 with b4
    subst b4
    refine ⟨r, w.next, a1, by rw [e'], ?_, hv, hnd⟩
    rw [e']
    exact if_pos rfl
  · exfalso
    have : w.getResults 0 = ({ w with
        heap := fun p => if p = w.next then some r else w.heap p
        next := w.next + 1
        gi := { w.gi with results := fun l => if l = 0 then some w.next else w.gi.results l } }, .ok w.next) := by
      unfold getResults
      rw [hnone, a3, a2]
      dsimp only
      rw [a7, ht]
      dsimp only
      rw [hr]
    rw [this] at hno
    exact hno _ rfl

/-! ## C56 -/

theorem set_fin {m : M5} (hm : ∃ K, m = M5.re K) (i j : Fin 5) (v : ℝ) : ∃ K, m.set i j (fin v) = M5.re K := by
  obtain ⟨K, rfl⟩ := hm
  refine M5.exists_re fun a b => ?_
  unfold M5.set
  split_ifs
  exacts [⟨_, rfl⟩, ⟨_, rfl⟩]

/-- the conversion matrix is finite for finite parameters in a finite field that is not zero -/
theorem curvilinearToL3_fin (om tl ph d z bx by' bz : ℝ) (hB : bx ≠ 0 ∨ by' ≠ 0 ∨ bz ≠ 0) :
    ∃ J : Matrix (Fin 5) (Fin 5) ℝ, curvilinearToL3Jacobian (hpR om tl ph d z) (V3.re bx by' bz) = M5.re J := by
  have hC : Real.cos (Real.arctan tl) ≠ 0 := (Real.cos_arctan_pos tl).ne'
  have hpos : (0 : ℝ) ≤ 1 + tl * tl := by have := mul_self_nonneg tl; linarith
  have hcl : (1 : ℝ) / Real.sqrt (1 + tl * tl) = Real.cos (Real.arctan tl) := by
    rw [Real.cos_arctan, pow_two]
  have hsq : Real.sqrt (1 + tl * tl) ≠ 0 := by
    intro h0; rw [h0, div_zero] at hcl; exact hC hcl.symm
  have hn : (0 : ℝ) < bx * bx + by' * by' + bz * bz := by
    rcases hB with h | h | h <;> have := mul_self_pos.mpr h <;>
      nlinarith [mul_self_nonneg bx, mul_self_nonneg by', mul_self_nonneg bz]
  have hunit : ∃ h1 h2 h3 : ℝ, (V3.re bx by' bz).unit = V3.re h1 h2 h3 := by
    simp only [V3.unit, V3.r, V3.re, fin_mul, fin_add, sqrt_fin hn.le, fin_div _ (Real.sqrt_pos.mpr hn).ne']
    exact ⟨_, _, _, rfl⟩
  obtain ⟨h1, h2, h3, hunit⟩ := hunit
  have hcl' : fin 1 / Dbl.sqrt (fin (1 + tl * tl)) = fin (Real.cos (Real.arctan tl)) := by
    rw [sqrt_fin hpos, fin_div _ hsq, hcl]
  have hcs : Real.cos ph * Real.cos ph + Real.sin ph * Real.sin ph = 1 := by
    have := Real.cos_sq_add_sin_sq ph; linarith
  obtain ⟨-, -, a3, -, -, -⟩ := cl2p_aux (C := Real.cos (Real.arctan tl)) (S := Real.sin (Real.arctan tl)) (h := h3) hcs
  have hC' : -Real.cos (Real.arctan tl) ≠ 0 := neg_ne_zero.mpr hC
  have hmat : ∃ K : Matrix (Fin 5) (Fin 5) ℝ,
      curvilinearToPerigeeJacobian (hpR om tl ph d z) (V3.re bx by' bz) = M5.re K := by
    unfold curvilinearToPerigeeJacobian
    simp only [calculateLambda_hpR, calculatePhi0_hpR, calculateCurvature_hpR, hunit, cos_fin, sin_fin, tan_fin hC,
      Real.tan_arctan, fin_mul, fin_add, fin_neg, zero_eq, one_eq, hcl']
    simp only [V3.re] at a3 ⊢
    simp only [a3]
    simp only [V3.dot, V3.cross, convert_eq, fin_mul, fin_neg, fin_add, fin_sub, fin_div _ hC, fin_div _ hC']
    repeat' apply set_fin
    exact ⟨0, by funext i j; simp [M5.unit, M5.zero, M5.re]⟩
  obtain ⟨K, hK⟩ := hmat
  unfold curvilinearToL3Jacobian
  rw [hK, perigeeToL3_re, M5.mul_re]
  exact ⟨_, rfl⟩

/-- C56: for finite parameters, corrections and covariance and a field that is not zero, the fitted parameters are the
parameters of the element plus `J c`, with covariance `J C Jᵀ`, which is symmetric and positive semidefinite if `C` is; if
the fitter reports an error, the parameters are those of the element. -/
theorem C56_result {f : GblFit} {t : Traj} {field : V3 → V3} {label : ℤ} {r : FitResults} (h : ResultOf f t field label r)
    {err : ℤ} {c : Fin 5 → ℝ} {C : Matrix (Fin 5) (Fin 5) ℝ} (hf : f.results label = (err, V5.re c, M5.re C))
    {om tl ph d z bx by' bz : ℝ} {cov : M5} {rp : V3} {e : Element} (he : t.elems[label.toNat]? = some e)
    (htp : e.tp = ⟨cov, hpR om tl ph d z, rp⟩) (hfield : field rp = V3.re bx by' bz) (hB : bx ≠ 0 ∨ by' ≠ 0 ∨ bz ≠ 0) :
    ∃ J : Matrix (Fin 5) (Fin 5) ℝ, curvilinearToL3Jacobian (hpR om tl ph d z) (V3.re bx by' bz) = M5.re J ∧
      r.estParams.rp = rp ∧ r.estParams.cov = M5.re (J * C * J.transpose) ∧
      (err = 0 → r.estParams.hp = V5.re (![om, tl, ph, d, z] + J.mulVec c)) ∧
      (err ≠ 0 → r.estParams.hp = hpR om tl ph d z) ∧
      (C.IsSymm → (J * C * J.transpose).IsSymm) ∧ (C.PosSemidef → (J * C * J.transpose).PosSemidef) := by
  obtain ⟨J, hJ⟩ := curvilinearToL3_fin om tl ph d z bx by' bz hB
  obtain ⟨n, e', hn, he', hrp, J', hJ', p1, p2, p3⟩ := h.params
  have hnn : label.toNat = n := by omega
  rw [hnn, he'] at he
  injection he with he
  subst he
  rw [htp] at hJ' p1 p2 hrp
  dsimp only at hJ' p1 p2 hrp
  rw [hfield, hJ] at hJ'
  subst hJ'
  refine ⟨J, hJ, hrp, ?_, ?_, ?_, ?_, ?_⟩
  · rw [p3, hf, M5.mul_re, M5.transpose_re, M5.mul_re]
  · rintro rfl
    rw [p1 _ _ hf, M5.mulVec_re, hpR_eq_re]
    funext i
    simp [V5.add, V5.re]
  · intro herr
    rw [p2 _ _ _ hf herr, show V5.zero = V5.re 0 from by funext i; simp [V5.zero, V5.re], M5.mulVec_re, hpR_eq_re]
    funext i
    simp [V5.add, V5.re]
  · intro hs
    unfold Matrix.IsSymm
    rw [Matrix.transpose_mul, Matrix.transpose_mul, Matrix.transpose_transpose, hs.eq, Matrix.mul_assoc]
  · intro hp
    have := hp.mul_mul_conjTranspose_same J
    have ht : J.conjTranspose = J.transpose := by
      ext i j; simp
    rwa [ht] at this

/-- C56: a label that is not the number of an element is undefined behaviour. -/
theorem C56_bad_label (w : World) (label : ℤ) (hr : w.gi.results label = none) {i : ℕ} {f : GblFit} {t : Traj} {field : V3 → V3}
    (h1 : w.gi.traj = some i) (h2 : w.gi.fitted = some f) (h3 : w.trajs i = some (t, field))
    (hl : label < 0 ∨ (t.elems.length : ℤ) ≤ label) : ∃ m, w.getResults label = (w, .ub m) := by
  unfold getResults
  rw [hr, h1, h2]
  dsimp only
  rw [h3]
  dsimp only
  have : ∃ m, fillContent w.gi f t field label = .ub m := by
    unfold fillContent
    dsimp only
    by_cases hneg : label < 0
    · rw [if_pos hneg]; exact ⟨_, rfl⟩
    · rw [if_neg hneg]
      have : t.elems[label.toNat]? = none := by
        rw [List.getElem?_eq_none_iff]; omega
      rw [this]
      exact ⟨_, rfl⟩
  obtain ⟨m, hm⟩ := this
  rw [hm]
  exact ⟨m, rfl⟩

/-- C56, numbering: if the fitter counts the points from 1 (so the corrections at label `n` belong to the `n`-th point handed
over, as in GBL), they are added to the parameters of the *following* element. -/
theorem C56_label_partial (at' : ℕ → V5) {f : GblFit} (hnum : ∀ n : ℕ, 1 ≤ n → ∃ C, f.results n = (0, at' (n - 1), C))
    {t : Traj} {field : V3 → V3} {n : ℕ} (hn : 1 ≤ n) {r : FitResults} (h : ResultOf f t field n r) :
    ∃ e, t.elems[n]? = some e ∧ r.estParams.hp =
      V5.add e.tp.hp (M5.mulVec (curvilinearToL3Jacobian e.tp.hp (field e.tp.rp)) (at' (n - 1))) := by
  obtain ⟨m, e, hm, he, -, J, hJ, p1, -, -⟩ := h.params
  have : m = n := by exact_mod_cast hm.symm
  subst this
  obtain ⟨C, hC⟩ := hnum m hn
  exact ⟨e, he, by rw [p1 _ _ hC, hJ]⟩

/-- C54, C56: after a fit that returned, every label that is the number of an element gives a result. -/
theorem C56_defined (gbl : Fitter) (w : World) (i : ℕ) {t : Traj} {field : V3 → V3} {ps : List GblPoint}
    (ht : w.trajs i = some (t, field)) (hps : gblPoints t.elems = .ok ps) (n : ℕ) (hn : n < t.elems.length) :
    ∃ p, ((w.fit gbl i).1.getResults n).2 = .ok p := by
  obtain ⟨-, a2, a3, -, -, -, a7⟩ := fit_ok gbl w i ht hps
  have hnone := (fit_cases gbl w i).2.2.2 n
  set w1 := (w.fit gbl i).1
  have hr : ∃ r, fillContent w1.gi (gbl ps) t field n = .ok r := by
    unfold fillContent
    dsimp only
    rw [if_neg (by omega), Int.toNat_natCast, List.getElem?_eq_getElem hn]
    exact ⟨_, rfl⟩
  obtain ⟨r, hr⟩ := hr
  refine ⟨w1.next, ?_⟩
  unfold getResults
  rw [hnone, a3, a2]
  dsimp only
  rw [a7, ht]
  dsimp only
  rw [hr]

namespace FitExample

/-- a fitter that succeeds -/
def good (c : Fin 5 → ℝ) : Fitter := fun _ => ⟨0, fin 3, 5, 0, fun _ => (0, V5.re c, M5.re (1 : Matrix (Fin 5) (Fin 5) ℝ))⟩

/-- a track at the origin, in a field along z -/
def elem : Element := { Element.start 0 ⟨M5.zero, hpR 1 0 0 0 0, V3.re 0 0 0⟩ 0 with jac := some M5.zero }

def world : World := init fun _ => some (⟨⟨M5.zero, hpR 1 0 0 0 0, V3.re 0 0 0⟩, [elem], [], pionMass⟩, fun _ => V3.re 0 0 1)

end FitExample

open FitExample in
/-- the hypotheses of `C54_last_fit`, `C56_result` are met: a second fit after a first one and a result in between; the result
has the numbers of the second fit, corrected parameters and a positive semidefinite covariance. -/
theorem C56_example (c : Fin 5 → ℝ) (gbl : Fitter) (hg : gbl = good c) :
    ∃ (w1 : World) (p : ℕ) (r : FitResults) (J : Matrix (Fin 5) (Fin 5) ℝ),
      ((world.run gbl [.fit 0, .results 0]).fit gbl 0).1.getResults 0 = (w1, .ok p) ∧ w1.heap p = some r ∧
      r.chisquare = fin 3 ∧ r.ndf = 5 ∧ r.estParams.hp = V5.re (![1, 0, 0, 0, 0] + J.mulVec c) ∧
      r.estParams.cov = M5.re (J * (1 : Matrix (Fin 5) (Fin 5) ℝ) * J.transpose) ∧
      (J * (1 : Matrix (Fin 5) (Fin 5) ℝ) * J.transpose).PosSemidef := by
  subst hg
  have hps : gblPoints [elem] = .ok [⟨M5.zero, none, none⟩] := rfl
  have hw : (world.run (good c) [.fit 0, .results 0]).trajs 0 = world.trajs 0 := by
    show ((((world.fit (good c) 0).1).getResults 0).1).trajs 0 = _
    have h1 : ∀ w : World, (w.getResults 0).1.trajs = w.trajs := by
      intro w
      rcases getResults_cases w 0 with ⟨p, -, e⟩ | ⟨-, _, _, _, _, _, -, -, -, -, e⟩ | ⟨e, -⟩ <;> rw [e]
    rw [h1, (fit_ok (good c) world 0 rfl hps).2.2.2.2.2.2]
  obtain ⟨p, hp⟩ := C56_defined (good c) _ 0 hw hps 0 (by simp)
  obtain ⟨t', field', r, h1, h2, h3⟩ := C54_last_fit (good c) _ [.fit 0, .results 0] 0 hw hps [] (by intro o ho; cases ho) 0
    (w1 := (((world.run (good c) [.fit 0, .results 0]).fit (good c) 0).1.getResults 0).1) (p := p) (Prod.ext rfl hp)
  obtain ⟨rfl, rfl⟩ := h3 (by intro t'' h; cases h)
  obtain ⟨J, -, -, k2, k3, -, -, k4⟩ := C56_result h2 (err := 0) (c := c) (C := (1 : Matrix (Fin 5) (Fin 5) ℝ)) rfl (e := elem) rfl rfl rfl
    (Or.inr (Or.inr one_ne_zero))
  have hnd : r.ndf = 5 := by
    have h5 : (r.ndf : ℤ) = 5 % 2 ^ 32 := h2.ndf
    omega
  exact ⟨_, p, r, J, Prod.ext rfl hp, h1, h2.chi2, hnd, k3 rfl, k2, k4 Matrix.PosSemidef.one⟩

end Verif
