import Verif.Lemmas.Trajectory

/-!
# C46–C49: elements of a trajectory
-/

open Classical

noncomputable section

namespace Verif

open Dbl Traj

/-! ## C46 -/

/-- the call adds to the trajectory (`setMass` does not) -/
def Adds : AddOp → Prop
  | .measurement .. => True
  | .scatterer .. => True
  | .setMass .. => False

theorem append_cases (t : Traj) (o : Out (Option Element)) :
    (∃ e, o = .ok (some e) ∧ t.append o = ({ t with elems := t.elems ++ [e] }, .ok true)) ∨
    ((t.append o).1 = t ∧ (t.append o).2 ≠ .ok true) := by
  rcases o with (_ | e) | w | w | _
  · right; exact ⟨rfl, by simp [append]⟩
  · left; exact ⟨e, rfl, rfl⟩
  · right; exact ⟨rfl, by simp [append]⟩
  · right; exact ⟨rfl, by simp [append]⟩
  · right; exact ⟨rfl, by simp [append]⟩

theorem withStart_ne (t : Traj) : t.withStart.elems ≠ [] := by
  unfold withStart
  by_cases h : t.elems = []
  · rw [if_pos h]; simp [addElement]
  · rwa [if_neg h]

theorem withStart_length (t : Traj) : t.withStart.elems.length = max 1 t.elems.length := by
  unfold withStart
  by_cases h : t.elems = []
  · rw [if_pos h]; simp [addElement, h]
  · rw [if_neg h]
    have : 0 < t.elems.length := List.length_pos_iff.mpr h
    omega

theorem withStart_prefix (t : Traj) : t.elems <+: t.withStart.elems := by
  unfold withStart
  by_cases h : t.elems = []
  · rw [h]; exact List.nil_prefix
  · rw [if_neg h]

theorem withStart_rest (t : Traj) : t.withStart.ref = t.ref ∧ t.withStart.inters = t.inters ∧ t.withStart.mass = t.mass := by
  unfold withStart
  by_cases h : t.elems = []
  · rw [if_pos h]; exact ⟨rfl, rfl, rfl⟩
  · rw [if_neg h]; exact ⟨rfl, rfl, rfl⟩

/-- what a call of `addMeasurement` or `addScatterer` does, in terms of the element that it computes from the last one -/
theorem step_cases (env : Env) (t : Traj) (op : AddOp) (ha : Adds op) :
    ∃ (back : Element) (o : Out (Option Element)), t.withStart.elems.getLast? = some back ∧
      t.step env op = t.withStart.append o ∧
      ((∃ position precision surface id isScatterer, op = .measurement position precision surface id isScatterer ∧
        o = measurementElement env t.mass back position precision surface id isScatterer) ∨
       (∃ surface, op = .scatterer surface ∧ o = scattererElement env t.mass back surface)) := by
  have hne := withStart_ne t
  have hm := (withStart_rest t).2.2
  cases hl : t.withStart.elems.getLast? with
  | none => exact absurd (List.getLast?_eq_none_iff.mp hl) hne
  | some back =>
    cases op with
    | measurement p prec s id sc =>
      refine ⟨back, _, rfl, ?_, Or.inl ⟨p, prec, s, id, sc, rfl, rfl⟩⟩
      simp only [step, addMeasurement, hl, hm]
    | scatterer s =>
      refine ⟨back, _, rfl, ?_, Or.inr ⟨s, rfl, rfl⟩⟩
      simp only [step, addScatterer, hl, hm]
    | setMass m => exact absurd ha (by simp [Adds])

/-- C46: a call keeps all elements and their order, and neither touches the reference parameters nor the list of
intersections. -/
theorem C46_keeps (env : Env) (t : Traj) (op : AddOp) :
    t.elems <+: (t.step env op).1.elems ∧ (t.step env op).1.ref = t.ref ∧ (t.step env op).1.inters = t.inters := by
  by_cases ha : Adds op
  · obtain ⟨back, o, -, e, -⟩ := step_cases env t op ha
    rw [e]
    obtain ⟨r1, r2, -⟩ := withStart_rest t
    rcases append_cases t.withStart o with ⟨x, -, h⟩ | ⟨h, -⟩
    · rw [h]; exact ⟨(withStart_prefix t).trans (List.prefix_append _ _), r1, r2⟩
    · rw [h]; exact ⟨withStart_prefix t, r1, r2⟩
  · cases op with
    | measurement => exact absurd trivial ha
    | scatterer => exact absurd trivial ha
    | setMass m => exact ⟨List.prefix_rfl, rfl, rfl⟩

/-- C46: apart from the start element of an empty trajectory, a successful call appends exactly one element; a call that
returns false (or throws) appends none. -/
theorem C46_count (env : Env) (t : Traj) (op : AddOp) (ha : Adds op) :
    ((t.step env op).2 = .ok true → (t.step env op).1.elems.length = max 1 t.elems.length + 1) ∧
    ((t.step env op).2 ≠ .ok true → (t.step env op).1.elems.length = max 1 t.elems.length) := by
  obtain ⟨back, o, -, e, -⟩ := step_cases env t op ha
  rw [e]
  rcases append_cases t.withStart o with ⟨x, -, h⟩ | ⟨h, h2⟩
  · rw [h]
    refine ⟨fun _ => ?_, fun h => absurd rfl h⟩
    simp only [List.length_append, withStart_length, List.length_singleton]
  · exact ⟨fun h' => absurd h' h2, fun _ => by rw [h, withStart_length]⟩

/-- C46: `setMass` changes no element. -/
theorem C46_setMass (env : Env) (t : Traj) (m : Dbl) : (t.step env (.setMass m)).1.elems = t.elems := rfl

/-- number of successful add calls in a history -/
def successes (env : Env) (t : Traj) : List AddOp → ℕ
  | [] => 0
  | op :: h => (if Adds op ∧ ((after env t h).step env op).2 = .ok true then 1 else 0) + successes env t h

/-- C46, histories: whatever follows, the elements present at some time stay first and in order. -/
theorem C46_history_prefix (env : Env) (t : Traj) (later h : List AddOp) :
    (after env t h).elems <+: (after env t (later ++ h)).elems := by
  induction later with
  | nil => exact List.prefix_rfl
  | cons op l ih => exact ih.trans (C46_keeps env _ op).1

/-- C46, histories: the number of elements is one (the start element) plus the number of successful calls. -/
theorem C46_history_count (env : Env) (tp : TP) (h : List AddOp) :
    (after env (make tp) h).elems.length =
      (if ∃ op ∈ h, Adds op then 1 else 0) + successes env (make tp) h := by
  induction h with
  | nil => simp [after, make, successes]
  | cons op h ih =>
    by_cases ha : Adds op
    · have hc := C46_count env (after env (make tp) h) op ha
      have hs : successes env (make tp) h = 0 ∨ ∃ op ∈ h, Adds op := by
        clear ih hc
        induction h with
        | nil => left; rfl
        | cons o h ih =>
          by_cases ho : Adds o
          · right; exact ⟨o, by simp, ho⟩
          · rcases ih with ih | ⟨o', h1, h2⟩
            · left; simp [successes, ho, ih]
            · right; exact ⟨o', by simp [h1], h2⟩
      have hmax : max 1 (after env (make tp) h).elems.length = 1 + successes env (make tp) h := by
        rw [ih]
        by_cases hx : ∃ op ∈ h, Adds op
        · rw [if_pos hx]; omega
        · rw [if_neg hx]
          rcases hs with hs | hs
          · rw [hs]; rfl
          · exact absurd hs hx
      rw [if_pos ⟨op, by simp, ha⟩]
      by_cases hok : ((after env (make tp) h).step env op).2 = .ok true
      · have := hc.1 hok
        simp only [after, successes, ha, hok, true_and, if_true]
        omega
      · have := hc.2 hok
        simp only [after, successes, ha, hok, and_false, if_false]
        omega
    · have e : (after env (make tp) (op :: h)).elems = (after env (make tp) h).elems := by
        cases op with
        | measurement => exact absurd trivial ha
        | scatterer => exact absurd trivial ha
        | setMass m => rfl
      rw [e, ih]
      simp [successes, ha]

/-! ## C47 -/

/-- the surface of an add call -/
def opSurface : AddOp → Option Surface
  | .measurement _ _ s _ _ => some s
  | .scatterer s => some s
  | .setMass _ => none

/-- throughout the history the last element is in general position with respect to the surface that is added next -/
def HistGenPos (env : Env) (t : Traj) : List AddOp → Prop
  | [] => True
  | op :: h => HistGenPos env t h ∧ ∀ surf back, opSurface op = some surf →
      (after env t h).withStart.elems.getLast? = some back → GenPos surf back.tp.hp back.tp.rp

/-- arc lengths are numbers or plus infinity -/
def ArcOk (x : Dbl) : Prop := x = .inf false ∨ ∃ a : ℝ, x = fin a

theorem arcOk_add {s x : Dbl} (hs : 0 ≤ s) (hx : ArcOk x) : ArcOk (s + x) ∧ x ≤ s + x := by
  rcases hx with rfl | ⟨a, rfl⟩
  · cases s with
    | fin s => exact ⟨Or.inl rfl, Or.inr rfl⟩
    | inf t =>
      rw [zero_eq, fin_le_inf] at hs
      subst hs
      exact ⟨Or.inl rfl, Or.inr rfl⟩
    | nan => exact absurd hs (not_le_nan _)
  · cases s with
    | fin s =>
      rw [zero_eq, fin_le] at hs
      exact ⟨Or.inr ⟨s + a, rfl⟩, by rw [fin_add, fin_le]; linarith⟩
    | inf t =>
      rw [zero_eq, fin_le_inf] at hs
      subst hs
      exact ⟨Or.inl rfl, (fin_le_inf a false).2 rfl⟩
    | nan => exact absurd hs (not_le_nan _)

theorem arcOk_trans {x y w : Dbl} (hx : ArcOk x) (hy : ArcOk y) (hw : ArcOk w) (h1 : x ≤ y) (h2 : y ≤ w) : x ≤ w := by
  rcases hx with rfl | ⟨a, rfl⟩ <;> rcases hy with rfl | ⟨b, rfl⟩ <;> rcases hw with rfl | ⟨c, rfl⟩ <;>
    simp_all
  exact le_trans h1 h2

/-- the arc length of a new element -/
theorem step_arc (env : Env) (t : Traj) (op : AddOp) (ha : Adds op) :
    ((t.step env op).1 = t.withStart) ∨
    ∃ back e surf hit cb, t.withStart.elems.getLast? = some back ∧ opSurface op = some surf ∧
      intersectWithSurface surf back.tp.hp back.tp.rp 0 V3.zero 1 cb = .ok hit ∧ hit.found = true ∧
      e.arc = hit.s + back.arc ∧ (t.step env op).1 = { t.withStart with elems := t.withStart.elems ++ [e] } := by
  obtain ⟨back, o, hb, e, hop⟩ := step_cases env t op ha
  rw [e]
  rcases append_cases t.withStart o with ⟨x, hx, h⟩ | ⟨h, -⟩
  · right
    rw [h]
    rcases hop with ⟨p, prec, surf, id, sc, rfl, ho⟩ | ⟨surf, rfl, ho⟩
    · rw [hx] at ho
      obtain ⟨hit, tp, w, proj, h1, h2, h3, h4, h5⟩ := measurement_ok ho.symm
      exact ⟨back, x, surf, hit, _, hb, rfl, h1, h2, by rw [h5], rfl⟩
    · rw [hx] at ho
      obtain ⟨hit, tp, w, proj, h1, h2, h3, h4, h5⟩ := scatterer_ok ho.symm
      exact ⟨back, x, surf, hit, _, hb, rfl, h1, h2, by rw [h5], rfl⟩
  · left; exact h

theorem after_ref (env : Env) (t : Traj) (h : List AddOp) : (after env t h).ref = t.ref := by
  induction h with
  | nil => rfl
  | cons o h ih => exact (C46_keeps env _ o).2.1.trans ih

/-- C47: after any history of calls in general position the arc lengths are numbers (or plus infinity, for disks that
are never reached) in non-decreasing order. -/
theorem C47_ordered (env : Env) (tp : TP) (a : ℝ) (hstart : calculateSfromXY 0 0 tp.hp tp.rp = fin a)
    (h : List AddOp) (hg : HistGenPos env (make tp) h) :
    (after env (make tp) h).elems.Pairwise (fun x y => x.arc ≤ y.arc) ∧
    ∀ e ∈ (after env (make tp) h).elems, ArcOk e.arc := by
  induction h with
  | nil => exact ⟨by simp [after, make], by simp [after, make]⟩
  | cons op h ih =>
    obtain ⟨hg1, hg2⟩ := hg
    obtain ⟨ih1, ih2⟩ := ih hg1
    have href := after_ref env (make tp) h
    rw [after]
    generalize after env (make tp) h = t at *
    by_cases ha : Adds op
    · have hw : t.withStart.elems.Pairwise (fun x y => x.arc ≤ y.arc) ∧ ∀ e ∈ t.withStart.elems, ArcOk e.arc := by
        unfold withStart
        by_cases he : t.elems = []
        · rw [if_pos he]
          refine ⟨by simp [addElement, he], ?_⟩
          intro e hem
          simp only [addElement, he, List.nil_append, List.mem_singleton] at hem
          rw [hem]
          exact Or.inr ⟨a, by simp only [Element.start, href]; exact hstart⟩
        · rw [if_neg he]; exact ⟨ih1, ih2⟩
      rcases step_arc env t op ha with e1 | ⟨back, e, surf, hit, cb, hb, hs, hr, hf, earc, e1⟩
      · rw [e1]; exact hw
      · rw [e1]
        have hn := forward_nonneg (hg2 surf back hs hb) one_pos hr hf
        obtain ⟨l, hl⟩ := List.getLast?_eq_some_iff.mp hb
        have hbm : ArcOk back.arc := hw.2 back (by rw [hl]; simp)
        obtain ⟨q1, q2⟩ := arcOk_add hn hbm
        rw [← earc] at q1 q2
        refine ⟨List.pairwise_append.mpr ⟨hw.1, List.pairwise_singleton _ _, ?_⟩, ?_⟩
        · intro x hx y hy
          rw [List.mem_singleton] at hy
          subst hy
          have hx' := hx
          rw [hl, List.mem_append, List.mem_singleton] at hx
          rcases hx with hx | hx
          · have hp := hw.1
            rw [hl] at hp
            have := (List.pairwise_append.mp hp).2.2 x hx back (by simp)
            exact arcOk_trans (hw.2 x hx') hbm q1 this q2
          · rw [hx]; exact q2
        · intro x hx
          rw [List.mem_append, List.mem_singleton] at hx
          rcases hx with hx | hx
          · exact hw.2 x hx
          · rw [hx]; exact q1
    · cases op with
      | measurement => exact absurd trivial ha
      | scatterer => exact absurd trivial ha
      | setMass m => exact ⟨ih1, ih2⟩

/-- C47: the first element is the reference helix, at the arc length computed for the point of the z axis. -/
theorem C47_start (env : Env) (tp : TP) (h : List AddOp) (hne : (after env (make tp) h).elems ≠ []) :
    (after env (make tp) h).elems.head? = some (Element.start (calculateSfromXY 0 0 tp.hp tp.rp) tp 0) := by
  induction h with
  | nil => exact absurd rfl hne
  | cons op h ih =>
    by_cases he : (after env (make tp) h).elems = []
    · by_cases ha : Adds op
      · obtain ⟨back, o, hb, e, -⟩ := step_cases env (after env (make tp) h) op ha
        have hw : (after env (make tp) h).withStart.elems = [Element.start (calculateSfromXY 0 0 tp.hp tp.rp) tp 0] := by
          unfold withStart
          rw [if_pos he]
          simp only [addElement, he, after_ref, List.nil_append]
          rfl
        rw [after, e]
        rcases append_cases (after env (make tp) h).withStart o with ⟨x, hx, h'⟩ | ⟨h', -⟩
        · rw [h']; simp [hw]
        · rw [h', hw]; rfl
      · cases op with
        | measurement => exact absurd trivial ha
        | scatterer => exact absurd trivial ha
        | setMass m => exact absurd he hne
    · have hk := (C46_keeps env (after env (make tp) h) op).1
      have hi := ih he
      obtain ⟨l, hl⟩ := hk
      rw [after, ← hl]
      cases hx : (after env (make tp) h).elems with
      | nil => exact absurd hx he
      | cons x xs => rw [hx] at hi; simpa using hi

/-- C47: for a reference point on the z axis (with the usual parameters of the point of closest approach) the trajectory
starts at arc length 0. -/
theorem C47_start_zero (om tl ph d z rz : ℝ) (h1 : om * d < 1) (h2 : -Real.pi < ph) (h3 : ph ≤ Real.pi) :
    calculateSfromXY 0 0 (hpR om tl ph d z) (V3.re 0 0 rz) = fin 0 := by
  have hp : 0 < 1 - om * d := by linarith
  have e := ratan2_polar hp h2 h3
  have e1 : Real.sin ph - om * (0 - (0 - Real.sin ph * d)) = (1 - om * d) * Real.sin ph := by ring
  have e2 : Real.cos ph + om * (0 - (0 + Real.cos ph * d)) = (1 - om * d) * Real.cos ph := by ring
  have hpi := Real.pi_pos
  simp only [calculateSfromXY, calculatePhi0_hpR, calculateD0_hpR, calculateCurvature_hpR, V3.re, zero_eq, sin_fin, cos_fin,
    fin_mul, fin_sub, fin_add, atan2_fin, e1, e2, e, sub_self, pi_eq, fin_neg, fin_lt, ofNat_eq]
  simp only [show ¬ ((0 : ℝ) < -Real.pi) by linarith, show ¬ (Real.pi < (0 : ℝ)) by linarith, cif_false]
  rw [cif_neg (by simp)]

/-- C47 is false as stated: for another reference point the trajectory does not start at arc length 0. -/
theorem C47_start_false : calculateSfromXY 0 0 (hpR 1 0 0 0 0) (V3.re (-1) 1 0) = fin (Real.pi / 2) := by
  have e : ratan2 (-1) 0 = -(Real.pi / 2) := by
    have := ratan2_polar (r := 1) (θ := -(Real.pi / 2)) one_pos (by linarith [Real.pi_pos]) (by linarith [Real.pi_pos])
    simpa using this
  have hpi := Real.pi_pos
  simp only [calculateSfromXY, calculatePhi0_hpR, calculateD0_hpR, calculateCurvature_hpR, V3.re, zero_eq, sin_fin, cos_fin,
    fin_mul, fin_sub, fin_add, atan2_fin, Real.sin_zero, Real.cos_zero]
  norm_num
  rw [e]
  simp only [fin_lt, pi_eq, fin_neg]
  simp only [show ¬ (-(Real.pi / 2) < -Real.pi) by linarith, show ¬ (Real.pi < -(Real.pi / 2)) by linarith, cif_false,
    fin_eqv]
  rw [cif_pos (by linarith)]
  rw [sin_fin, Real.sin_neg, Real.sin_pi_div_two, fin_mul, fin_div _ (by norm_num)]
  norm_num

/-! ## C49 -/

theorem arcOk_lt {x y : Dbl} (hx : ArcOk x) (hy : ArcOk y) : ¬ (x < y) ↔ y ≤ x := by
  rcases hx with rfl | ⟨a, rfl⟩ <;> rcases hy with rfl | ⟨b, rfl⟩
  · simp only [inf_lt_inf]; simp; exact Or.inr rfl
  · simp
  · simp
  · simp

theorem arcOk_lt_of_lt_of_le {x y w : Dbl} (hx : ArcOk x) (hy : ArcOk y) (hw : ArcOk w) (h1 : x < y) (h2 : y ≤ w) : x < w := by
  by_contra hc
  rw [arcOk_lt hx hw] at hc
  have := arcOk_trans hy hw hx h2 hc
  rw [← arcOk_lt hx hy] at this
  exact this h1

theorem elementAtLoop_spec (s : Dbl) (hs : ArcOk s) (l : List Element) (prevS : Dbl) (p : Element) (hp : prevS ≤ s)
    (hl : ∀ e ∈ l, ArcOk e.arc) (hsort : l.Pairwise (fun x y => x.arc ≤ y.arc)) :
    ∃ (i : ℕ) (hi : i < (p :: l).length), elementAtLoop s prevS p l = (p :: l)[i] ∧
      (∀ (j : ℕ) (hj : j < (p :: l).length), i < j → s < (p :: l)[j].arc) ∧ (i = 0 ∨ (p :: l)[i].arc ≤ s) := by
  induction l generalizing prevS p with
  | nil => exact ⟨0, by simp, rfl, by simp, Or.inl rfl⟩
  | cons e l ih =>
    have hea := hl e (by simp)
    by_cases hlt : s < e.arc
    · refine ⟨0, by simp, ?_, ?_, Or.inl rfl⟩
      · rw [elementAtLoop, cif_pos ⟨hp, hlt⟩]; rfl
      · intro j hj h0
        obtain ⟨j, rfl⟩ : ∃ k, j = k + 1 := ⟨j - 1, by omega⟩
        rw [List.getElem_cons_succ]
        have hj' : j < (e :: l).length := by simpa using hj
        rcases Nat.eq_zero_or_pos j with rfl | hjp
        · exact hlt
        · obtain ⟨j, rfl⟩ : ∃ k, j = k + 1 := ⟨j - 1, by omega⟩
          have hm : l[j]'(by simpa using hj') ∈ l := List.getElem_mem _
          exact arcOk_lt_of_lt_of_le hs hea (hl _ (List.mem_cons_of_mem _ hm)) hlt
            ((List.pairwise_cons.mp hsort).1 _ hm)
    · rw [elementAtLoop, cif_neg (fun h => hlt h.2)]
      obtain ⟨i, hi, h1, h2, h3⟩ := ih e.arc e ((arcOk_lt hs hea).1 hlt) (fun x hx => hl x (List.mem_cons_of_mem _ hx))
        (List.pairwise_cons.mp hsort).2
      refine ⟨i + 1, by simpa using hi, by rw [h1, List.getElem_cons_succ], ?_, Or.inr ?_⟩
      · intro j hj hij
        obtain ⟨j, rfl⟩ : ∃ k, j = k + 1 := ⟨j - 1, by omega⟩
        rw [List.getElem_cons_succ]
        exact h2 j (by simpa using hj) (by omega)
      · rw [List.getElem_cons_succ]
        rcases h3 with rfl | h3
        · exact (arcOk_lt hs hea).1 hlt
        · exact h3

/-- C49 (partial): on a non-empty trajectory sorted in arc length, for `s` not below -1e99, the element at `s` is the last
one with arc length at most `s`, or the first element if all are beyond `s`.
Missing for C49: `s` below -1e99 (`C49_false`). -/
theorem C49_elementAt_partial (t : Traj) (hne : t.elems ≠ []) (hl : ∀ e ∈ t.elems, ArcOk e.arc)
    (hsort : t.elems.Pairwise (fun x y => x.arc ≤ y.arc)) (s : Dbl) (hs : ArcOk s) (h99 : -(1e99 : Dbl) ≤ s) :
    ∃ (i : ℕ) (hi : i < t.elems.length), t.elementAt s = .ok t.elems[i] ∧
      (∀ (j : ℕ) (hj : j < t.elems.length), i < j → s < t.elems[j].arc) ∧ (i = 0 ∨ t.elems[i].arc ≤ s) := by
  obtain ⟨ref, elems, inters, mass⟩ := t
  cases elems with
  | nil => exact absurd rfl hne
  | cons e l =>
    obtain ⟨i, hi, h1, h2, h3⟩ := elementAtLoop_spec s hs l _ e h99 (fun x hx => hl x (List.mem_cons_of_mem _ hx))
      (List.pairwise_cons.mp hsort).2
    exact ⟨i, hi, by rw [elementAt]; exact congrArg Out.ok h1, h2, h3⟩

/-- C49: `pointAt` and `tangentAt` evaluate the helix of this element at the remaining path length. -/
theorem C49_point (t : Traj) (s : Dbl) (e : Element) (h : t.elementAt s = .ok e) :
    t.pointAt s = .ok (Verif.pointAt (s - e.arc) e.tp.hp e.tp.rp) ∧
    t.tangentAt s = .ok (calculateTangent (s - e.arc) e.tp.hp) := by
  unfold Traj.pointAt Traj.tangentAt
  rw [h]
  exact ⟨rfl, rfl⟩

/-- C49 is false for `s` below -1e99: the last element is returned although all elements are beyond `s`. -/
theorem C49_false (tp : TP) : ∃ t : Traj, t.elems = [Element.start (fin 0) tp 0, Element.start (fin 1) tp 1] ∧
    t.elementAt (fin (-(2e99))) = .ok (Element.start (fin 1) tp 1) ∧ fin (-(2e99)) < fin 0 := by
  refine ⟨⟨tp, _, [], 0⟩, rfl, ?_, ?_⟩
  · simp only [elementAt, elementAtLoop]
    rw [cif_neg]
    rintro ⟨h, -⟩
    simp only [ofSci_eq, fin_neg, fin_le] at h
    norm_num at h
  · rw [fin_lt]; norm_num

/-- the hypotheses of C49 hold e.g. for two elements at 0 and 1 -/
example (tp : TP) : ∃ t : Traj, t.elems ≠ [] ∧ (∀ e ∈ t.elems, ArcOk e.arc) ∧
    t.elems.Pairwise (fun x y => x.arc ≤ y.arc) ∧ t.elems.length = 2 := by
  refine ⟨⟨tp, [Element.start (fin 0) tp 0, Element.start (fin 1) tp 1], [], 0⟩, by simp, ?_, ?_, rfl⟩
  · intro e he
    simp only [List.mem_cons, List.not_mem_nil, or_false] at he
    rcases he with rfl | rfl
    · exact Or.inr ⟨0, rfl⟩
    · exact Or.inr ⟨1, rfl⟩
  · simp [Element.start]

/-! ## C48 -/

/-- C48: the element added by a successful call is at the path length of the intersection, counted from the last element;
if the intersection is within half a turn (always so for cylinders and planes), the intersection point is the point of the
track and reference point of the new element, with d0 = z0 = 0, and apart from the curvature (energy loss) the new
element describes the same helix. -/
theorem C48_element (env : Env) (t : Traj) (op : AddOp) (hok : (t.step env op).2 = .ok true)
    (ha : Adds op) (back : Element) (hb : t.withStart.elems.getLast? = some back) (surf : Surface)
    (hs : opSurface op = some surf) {om tl ph d z rx ry rz : ℝ} (hhp : back.tp.hp = hpR om tl ph d z)
    (hrp : back.tp.rp = V3.re rx ry rz) (hom : om ≠ 0) (G : GenPos surf back.tp.hp back.tp.rp) :
    ∃ (e : Element) (hit : Hit) (cb : Bool), (t.step env op).1.elems = t.withStart.elems ++ [e] ∧
      intersectWithSurface surf back.tp.hp back.tp.rp 0 V3.zero 1 cb = .ok hit ∧ hit.found = true ∧
      e.arc = hit.s + back.arc ∧
      (surf.type.isZCylinder = true ∨ surf.type.isZPlane = true → ∃ sv : ℝ, hit.s = fin sv ∧ |om * sv| < Real.pi) ∧
      ∀ sv : ℝ, hit.s = fin sv → |om * sv| < Real.pi →
        hit.xx = Verif.pointAt (fin sv) back.tp.hp back.tp.rp ∧ e.tp.rp = hit.xx ∧ e.tp.cov = back.tp.cov ∧
        e.tp.hp D0 = fin 0 ∧ e.tp.hp Z0 = fin 0 ∧
        ∃ (fn : ℝ) (k : ℤ), fn = ph - om * sv + k * (2 * Real.pi) ∧
          e.tp.hp = (hpR om tl fn 0 0).set OMEGA (e.tp.hp OMEGA) := by
  obtain ⟨back', o, hb', e0, hop⟩ := step_cases env t op ha
  rw [hb] at hb'
  injection hb' with hb'
  subst hb'
  rw [e0] at hok ⊢
  rcases append_cases t.withStart o with ⟨e, ho, h⟩ | ⟨-, h⟩
  · rw [h]
    have key : ∃ (hit : Hit) (cb : Bool) (tp : TP) (w x : Dbl),
        intersectWithSurface surf back.tp.hp back.tp.rp 0 V3.zero 1 cb = .ok hit ∧ hit.found = true ∧
        moveHelixTo back.tp hit.xx false = .ok (tp, w) ∧ e.arc = hit.s + back.arc ∧
        e.tp = ⟨tp.cov, tp.hp.set OMEGA x, tp.rp⟩ := by
      rcases hop with ⟨p, prec, surf', id, sc, rfl, ho'⟩ | ⟨surf', rfl, ho'⟩
      · rw [ho] at ho'
        obtain ⟨hit, tp, w, proj, h1, h2, h3, h4, h5⟩ := measurement_ok ho'.symm
        injection hs with hs
        subst hs
        exact ⟨hit, _, tp, w, _, h1, h2, h3, by rw [h5], by rw [h5]; rfl⟩
      · rw [ho] at ho'
        obtain ⟨hit, tp, w, proj, h1, h2, h3, h4, h5⟩ := scatterer_ok ho'.symm
        injection hs with hs
        subst hs
        exact ⟨hit, _, tp, w, _, h1, h2, h3, by rw [h5], by rw [h5]; rfl⟩
    obtain ⟨hit, cb, tp, w, x, h1, h2, h3, h4, h5⟩ := key
    have G' := G
    have h1' := h1
    rw [hhp, hrp] at G' h1'
    obtain ⟨q1, q2⟩ := hit_on_track G' hom one_ne_zero h1' h2
    refine ⟨e, hit, cb, rfl, h1, h2, h4, q1, ?_⟩
    intro sv hsv hb
    have hxx := q2 sv hsv
    obtain ⟨fn, k, f1, -, -, f2⟩ := move_to_track (tl := tl) (ph := ph) (d := d) (z := z) (rx := rx) (ry := ry)
      (rz := rz) back.tp.cov hom hb
    rw [← hxx, ← hhp, ← hrp] at f2
    have f3 : moveHelixTo back.tp hit.xx false = _ := f2
    rw [h3] at f3
    injection f3 with f3
    injection f3 with f3 _
    rw [h5, f3]
    refine ⟨by rw [hhp, hrp]; exact hxx, rfl, rfl, rfl, rfl, fn, k, f1, ?_⟩
    funext i
    by_cases hi : i = OMEGA
    · subst hi; simp [V5.set]
    · simp [V5.set, hi]
  · exact absurd hok h

/-- the trajectory passes through the reference point of an element with d0 = z0 = 0 that is the last one at its arc length -/
theorem C48_lookup (t : Traj) (l rest : List Element) (e : Element) (he : t.elems = l ++ e :: rest)
    (hl : ∀ x ∈ t.elems, ArcOk x.arc) (hsort : t.elems.Pairwise (fun x y => x.arc ≤ y.arc))
    (hrest : ∀ x ∈ rest, e.arc < x.arc) {a w tl fn x y q : ℝ} (harc : e.arc = fin a) (h99 : -(1e99) ≤ a) (hw : w ≠ 0)
    (hhp : e.tp.hp = hpR w tl fn 0 0) (hrp : e.tp.rp = V3.re x y q) : t.pointAt e.arc = .ok e.tp.rp := by
  have h99' : -(1e99 : Dbl) ≤ e.arc := by
    rw [harc]; simp only [ofSci_eq, fin_neg, fin_le]; exact h99
  have hne : t.elems ≠ [] := by rw [he]; simp
  obtain ⟨i, hi, h1, h2, h3⟩ := C49_elementAt_partial t hne hl hsort e.arc (Or.inr ⟨a, harc⟩) h99'
  have hk : l.length < t.elems.length := by rw [he]; simp
  have hek : t.elems[l.length] = e := by simp [he]
  have hie : i = l.length := by
    rcases Nat.lt_trichotomy i l.length with h | h | h
    · have := h2 l.length hk h
      rw [hek, harc, fin_lt] at this
      exact absurd this (lt_irrefl _)
    · exact h
    · exfalso
      have hm : t.elems[i] ∈ rest := by
        have : t.elems[i] = (l ++ e :: rest)[i]'(by rw [← he]; exact hi) := by simp [he]
        rw [this, List.getElem_append_right (by omega)]
        obtain ⟨k, hk⟩ : ∃ k, i - l.length = k + 1 := ⟨i - l.length - 1, by omega⟩
        simp [hk]
      have h4 := hrest _ hm
      rcases h3 with h3 | h3
      · omega
      · rw [← arcOk_lt (Or.inr ⟨a, harc⟩) (hl _ (List.getElem_mem _))] at h3
        exact h3 h4
  subst hie
  rw [hek] at h1
  rw [(C49_point t e.arc e h1).1, harc, fin_sub, sub_self, hhp, hrp, pointAt_re hw]
  congr 2 <;> simp [rX, rY, rZ]

/-- C48: after any history in general position, the trajectory passes through the intersection point of an added surface
at the arc length of its element, also after later calls as long as they add elements at larger arc lengths. -/
theorem C48_passes (env : Env) (tp : TP) (a : ℝ) (hstart : calculateSfromXY 0 0 tp.hp tp.rp = fin a) (h99 : -(1e99) ≤ a)
    (later h : List AddOp) (op : AddOp) (hg : HistGenPos env (make tp) (later ++ op :: h))
    (ha : Adds op) (surf : Surface) (hs : opSurface op = some surf)
    (hok : ((after env (make tp) h).step env op).2 = .ok true)
    (back : Element) (hb : (after env (make tp) h).withStart.elems.getLast? = some back)
    {om tl ph d z rx ry rz : ℝ} (hhp : back.tp.hp = hpR om tl ph d z) (hrp : back.tp.rp = V3.re rx ry rz) (hom : om ≠ 0) :
    ∃ (e : Element) (hit : Hit) (cb : Bool),
      (after env (make tp) (op :: h)).elems = (after env (make tp) h).withStart.elems ++ [e] ∧
      intersectWithSurface surf back.tp.hp back.tp.rp 0 V3.zero 1 cb = .ok hit ∧ hit.found = true ∧
      ∀ (sv w arc : ℝ) (rest : List Element), hit.s = fin sv → |om * sv| < Real.pi → e.arc = fin arc →
        e.tp.hp OMEGA = fin w → w ≠ 0 →
        (after env (make tp) (later ++ op :: h)).elems = (after env (make tp) (op :: h)).elems ++ rest →
        (∀ x ∈ rest, e.arc < x.arc) →
        (after env (make tp) (later ++ op :: h)).pointAt e.arc = .ok hit.xx := by
  have hg1 : HistGenPos env (make tp) (op :: h) := by
    clear hok hb
    induction later with
    | nil => exact hg
    | cons o l ih => exact ih hg.1
  obtain ⟨e, hit, cb, h1, h2, h3, h4, -, h5⟩ := C48_element env _ op hok ha back hb surf hs hhp hrp hom (hg1.2 surf back hs hb)
  refine ⟨e, hit, cb, h1, h2, h3, ?_⟩
  intro sv w arc rest e1 e2 e3 e4 e5 e6 e7
  obtain ⟨f1, f2, f3, -, -, fn, k, f4, f5⟩ := h5 sv e1 e2
  obtain ⟨s1, s2⟩ := C47_ordered env tp a hstart _ hg
  have hl : (after env (make tp) (later ++ op :: h)).elems =
      (after env (make tp) h).withStart.elems ++ e :: rest := by
    rw [e6, after, h1]; simp
  have hne : (after env (make tp) (later ++ op :: h)).elems ≠ [] := by rw [hl]; simp
  have hp5 : e.tp.hp = hpR w tl fn 0 0 := by
    rw [f5, e4]
    funext i
    by_cases hi : i = OMEGA
    · subst hi; rfl
    · simp only [V5.set, hi, if_false]
      fin_cases i
      · exact absurd rfl hi
      all_goals rfl
  have hrp' : e.tp.rp = V3.re (rX om ph d rx sv) (rY om ph d ry sv) (rZ tl z rz sv) := by
    rw [f2, f1, hhp, hrp, pointAt_re hom]
  have harc : -(1e99) ≤ arc := by
    have hst := C47_start env tp _ hne
    have hmem : ∃ l, (after env (make tp) (later ++ op :: h)).elems =
        Element.start (calculateSfromXY 0 0 tp.hp tp.rp) tp 0 :: l := by
      cases hx : (after env (make tp) (later ++ op :: h)).elems with
      | nil => exact absurd hx hne
      | cons x l => rw [hx, List.head?_cons, Option.some.injEq] at hst; exact ⟨l, by rw [hst]⟩
    obtain ⟨l, hl'⟩ := hmem
    have hw0 := withStart_ne (after env (make tp) h)
    cases hws : (after env (make tp) h).withStart.elems with
    | nil => exact absurd hws hw0
    | cons x l0 =>
      rw [hws] at hl
      rw [hl] at hl' s1
      have hxs : x = Element.start (calculateSfromXY 0 0 tp.hp tp.rp) tp 0 := by
        simp only [List.cons_append, List.cons.injEq] at hl'; exact hl'.1
      have := (List.pairwise_cons.mp s1).1 e (by simp)
      rw [hxs, e3] at this
      simp only [Element.start, hstart, fin_le] at this
      linarith
  rw [← f2]
  exact C48_lookup _ _ rest e hl s2 s1 e7 e3 harc e5 hp5 hrp'

end Verif
