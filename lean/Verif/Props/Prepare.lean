import Verif.Props.TrajectoryExample
import Verif.Lemmas.Sort

/-!
# C50: `prepareForFitting`
-/

open Classical

noncomputable section

namespace Verif

open Dbl Traj

/-- the element without its Jacobian -/
def noJac (e : Element) : Element := { e with jac := none }

theorem prepareLoop_ok {env : Env} {t : Traj} {prevS : Dbl} {l l' : List Element} (h : prepareLoop env t prevS l = .ok l') :
    l'.map noJac = l.map noJac ∧ ∀ (i : ℕ) (hi : i < l'.length), ∃ j : M5, l'[i].jac = some j ∧
      elementJacobian env t (if _h0 : i = 0 then prevS else (l'[i - 1]'(by omega)).arc) l'[i] = .ok j := by
  induction l generalizing prevS l' with
  | nil => injection h with h; subst h; exact ⟨rfl, fun i hi => absurd hi (by simp)⟩
  | cons e l ih =>
    unfold prepareLoop at h
    simp only [Out.bind_eq_ok] at h
    obtain ⟨j, h1, l1, h2, h3⟩ := h
    injection h3 with h3
    subst h3
    obtain ⟨q1, q2⟩ := ih h2
    refine ⟨by simp [q1, noJac], ?_⟩
    intro i hi
    rcases Nat.eq_zero_or_pos i with rfl | hpos
    · refine ⟨j, rfl, ?_⟩
      simp only [List.getElem_cons_zero, dif_pos]
      exact h1
    · obtain ⟨k, rfl⟩ : ∃ k, i = k + 1 := ⟨i - 1, by omega⟩
      obtain ⟨j', p1, p2⟩ := q2 k (by simpa using hi)
      refine ⟨j', by simpa using p1, ?_⟩
      rw [dif_neg (by omega)]
      by_cases hk : k = 0
      · subst hk
        rw [dif_pos rfl] at p2
        simpa using p2
      · obtain ⟨m, rfl⟩ : ∃ m, k = m + 1 := ⟨k - 1, by omega⟩
        rw [dif_neg (by omega)] at p2
        simpa using p2

/-- arc length and track parameters decide which tangent is returned -/
theorem elementAtLoop_congr (s prevS : Dbl) (p p' : Element) (l l' : List Element) (hp : noJac p = noJac p')
    (hl : l.map noJac = l'.map noJac) :
    noJac (elementAtLoop s prevS p l) = noJac (elementAtLoop s prevS p' l') := by
  induction l generalizing prevS p p' l' with
  | nil =>
    have : l' = [] := by simpa using hl.symm
    subst this
    exact hp
  | cons e l ih =>
    cases l' with
    | nil => simp at hl
    | cons e' l' =>
      simp only [List.map_cons, List.cons.injEq] at hl
      have ha : (noJac e).arc = (noJac e').arc := congrArg Element.arc hl.1
      change e.arc = e'.arc at ha
      simp only [elementAtLoop, ha]
      by_cases hc : prevS ≤ s ∧ s < e'.arc
      · rw [cif_pos hc, cif_pos hc]; exact hp
      · rw [cif_neg hc, cif_neg hc]; exact ih _ _ _ _ hl.1 hl.2

theorem tangentAt_congr (t t' : Traj) (s : Dbl) (h : t.elems.map noJac = t'.elems.map noJac) :
    t.tangentAt s = t'.tangentAt s := by
  obtain ⟨r, l, n, m⟩ := t
  obtain ⟨r', l', n', m'⟩ := t'
  simp only at h
  cases l with
  | nil =>
    have : l' = [] := by simpa using h.symm
    subst this
    rfl
  | cons e l =>
    cases l' with
    | nil => simp at h
    | cons e' l' =>
      simp only [List.map_cons, List.cons.injEq] at h
      have := elementAtLoop_congr s (-(1e99 : Dbl)) e e' l l' h.1 h.2
      simp only [tangentAt, elementAt, Out.ok_bind]
      have h1 := congrArg Element.arc this
      have h2 := congrArg Element.tp this
      simp only [noJac] at h1 h2
      rw [h1, h2]

/-- what a call that returns does -/
theorem prepare_ok {env : Env} {sort : List Element → List Element} (hsort : IsStdSort compareElements sort) {t t' : Traj}
    (h : t.prepareForFitting env sort = .ok t') :
    t'.ref = t.ref ∧ t'.inters = t.inters ∧ t'.mass = t.mass ∧
    (t'.elems.map noJac).Perm (t.elems.map noJac) ∧ t'.elems.Pairwise (fun a b => ¬ b.arc < a.arc) ∧
    ∃ first rest, t'.elems = first :: rest ∧ first.jac = some M5.zero ∧
      ∀ (i : ℕ) (hi : i < rest.length), ∃ j : M5, rest[i].jac = some j ∧
        elementJacobian env t' (if _h0 : i = 0 then 0 else (rest[i - 1]'(by omega)).arc) rest[i] = .ok j := by
  unfold prepareForFitting at h
  rw [Out.bind_eq_ok] at h
  obtain ⟨l, h1, h⟩ := h
  obtain ⟨p1, p2⟩ := stdSort_ok hsort h1
  cases l with
  | nil => cases h
  | cons e l =>
    simp only [Out.bind_eq_ok] at h
    obtain ⟨l', h2, h⟩ := h
    injection h with h
    subst h
    obtain ⟨q1, q2⟩ := prepareLoop_ok h2
    have hmap : (({ e with jac := some (M5.unit M5.zero) } : Element) :: l').map noJac = (e :: l).map noJac := by
      simp [q1, noJac]
    refine ⟨rfl, rfl, rfl, ?_, ?_, _, l', rfl, rfl, ?_⟩
    · rw [hmap]; exact p1.map noJac
    · have : ∀ m : List Element, (m.Pairwise (fun a b => ¬ b.arc < a.arc)) ↔
          ((m.map noJac).Pairwise (fun a b => ¬ b.arc < a.arc)) := by
        intro m; rw [List.pairwise_map]; rfl
      rw [this, hmap, ← this]
      exact p2
    · intro i hi
      obtain ⟨j, r1, r2⟩ := q2 i hi
      refine ⟨j, r1, ?_⟩
      rw [← r2]
      unfold elementJacobian
      simp only
      have hc := fun s => tangentAt_congr { t with elems := { e with jac := some (M5.unit M5.zero) } :: l' }
        { t with elems := e :: l } s hmap
      rw [hc, hc]

/-- C50: if `prepareForFitting` returns, the elements are those from before (apart from their Jacobians), ordered by arc
length, and each has a Jacobian; reference parameters, intersections and mass are unchanged. -/
theorem C50_elements {env : Env} {sort : List Element → List Element} (hsort : IsStdSort compareElements sort) {t t' : Traj}
    (h : t.prepareForFitting env sort = .ok t') :
    t'.ref = t.ref ∧ t'.inters = t.inters ∧ t'.mass = t.mass ∧ (t'.elems.map noJac).Perm (t.elems.map noJac) ∧
    t'.elems.Pairwise (fun a b => ¬ b.arc < a.arc) ∧ ∀ e ∈ t'.elems, e.jac.isSome = true := by
  obtain ⟨h1, h2, h3, h4, h5, first, rest, h6, h7, h8⟩ := prepare_ok hsort h
  refine ⟨h1, h2, h3, h4, h5, ?_⟩
  intro e he
  rw [h6, List.mem_cons] at he
  rcases he with rfl | he
  · rw [h7]; rfl
  · obtain ⟨i, hi, rfl⟩ := List.getElem_of_mem he
    obtain ⟨j, e1, -⟩ := h8 i hi
    rw [e1]; rfl

/-- the Jacobian of element `e` covers the path from arc length `p` to the element: it is the one of the propagation for the
three-dimensional path length, the curvature and field at the element, the tangents of the trajectory at both ends, and
the energy loss in the element's material -/
def Covers (env : Env) (t : Traj) (p : Dbl) (e : Element) : Prop :=
  ∃ (nrj : Dbl) (ts te : V3), t.tangentAt p = .ok ts ∧ t.tangentAt e.arc = .ok te ∧
    (e.scatterer = false → nrj = 0) ∧
    (e.scatterer = true → ∃ (surf : Surface) (el : ELoss) (en b : Dbl), e.surface = some surf ∧
      computeEnergyLossTrack env.globalField surf e.tp none none t.mass = .ok el ∧ el.energy = some en ∧ el.beta = some b ∧
      nrj = 2 * el.deltaE / (b * b * en)) ∧
    e.jac = some (env.getJacobian M5.zero ((e.arc - p) / Dbl.cos (calculateLambda e.tp.hp))
      (calculateQoverP e.tp.hp (env.field e.tp.rp).z) ts te (env.field e.tp.rp) nrj)

theorem covers_of {env : Env} {t : Traj} {p : Dbl} {e : Element} {j : M5} (h1 : e.jac = some j)
    (h2 : elementJacobian env t p e = .ok j) : Covers env t p e := by
  unfold elementJacobian at h2
  simp only [Out.bind_eq_ok] at h2
  obtain ⟨nrj, q1, ts, q2, te, q3, q4⟩ := h2
  injection q4 with q4
  refine ⟨nrj, ts, te, q2, q3, ?_, ?_, by rw [h1, ← q4]⟩
  · intro hs
    unfold energyLossEntry at q1
    rw [if_neg (by simp [hs])] at q1
    injection q1 with q1
    exact q1.symm
  · intro hs
    unfold energyLossEntry at q1
    rw [if_pos hs] at q1
    cases hsurf : e.surface with
    | none => rw [hsurf] at q1; cases q1
    | some surf =>
      rw [hsurf] at q1
      simp only [Out.bind_eq_ok] at q1
      obtain ⟨el, r1, r2⟩ := q1
      cases he : el.energy with
      | none => rw [he] at r2; cases r2
      | some en =>
        cases hb : el.beta with
        | none => rw [he, hb] at r2; cases r2
        | some b =>
          rw [he, hb] at r2
          injection r2 with r2
          exact ⟨surf, el, en, b, rfl, r1, he, hb, r2.symm⟩

/-- C50: from the third element on, the Jacobian of an element covers exactly the path from the element before; that of the
second element covers the path from arc length 0. -/
theorem C50_jacobians {env : Env} {sort : List Element → List Element} (hsort : IsStdSort compareElements sort) {t t' : Traj}
    (h : t.prepareForFitting env sort = .ok t') :
    (∀ (i : ℕ) (hi : i + 2 < t'.elems.length), Covers env t' t'.elems[i + 1].arc t'.elems[i + 2]) ∧
    (∀ (hi : 1 < t'.elems.length), Covers env t' 0 t'.elems[1]) ∧
    (∀ (hi : 0 < t'.elems.length), t'.elems[0].jac = some M5.zero) := by
  obtain ⟨-, -, -, -, -, first, rest, h6, h7, h8⟩ := prepare_ok hsort h
  refine ⟨?_, ?_, ?_⟩
  · intro i hi
    have hi' : i + 1 < rest.length := by rw [h6, List.length_cons] at hi; omega
    obtain ⟨j, e1, e2⟩ := h8 (i + 1) hi'
    rw [dif_neg (by omega)] at e2
    have := covers_of e1 e2
    simpa [h6] using this
  · intro hi
    have hi' : 0 < rest.length := by rw [h6] at hi; simpa using hi
    obtain ⟨j, e1, e2⟩ := h8 0 hi'
    rw [dif_pos rfl] at e2
    have := covers_of e1 e2
    simpa [h6] using this
  · intro hi
    simp [h6, h7]

/-- C50 (partial): if the first element is at arc length 0, every Jacobian but the first covers exactly the path from
element to element.  Missing for C50: first element at another arc length (`C50_start_false`), and the call need not
return at all (`C50_uninitialised_false`, `C50_empty`). -/
theorem C50_covers_partial {env : Env} {sort : List Element → List Element} (hsort : IsStdSort compareElements sort)
    {t t' : Traj} (h : t.prepareForFitting env sort = .ok t') (hl : 0 < t'.elems.length) (h0 : t'.elems[0].arc = 0)
    (i : ℕ) (hi : i + 1 < t'.elems.length) : Covers env t' t'.elems[i].arc t'.elems[i + 1] := by
  obtain ⟨h1, h2, -⟩ := C50_jacobians hsort h
  rcases Nat.eq_zero_or_pos i with rfl | hpos
  · rw [h0]; exact h2 hi
  · obtain ⟨k, rfl⟩ : ∃ k, i = k + 1 := ⟨i - 1, by omega⟩
    exact h1 k hi

/-- C50: on an empty trajectory the call is undefined behaviour. -/
theorem C50_empty (env : Env) {sort : List Element → List Element} (hsort : IsStdSort compareElements sort) (t : Traj)
    (h : t.elems = []) : ∃ w, t.prepareForFitting env sort = .ub w := by
  have hs : StrictWeakOn compareElements ([] : List Element) := ⟨by simp, by simp, by simp⟩
  have hnil : sort [] = [] := List.perm_nil.mp (hsort.perm [] hs)
  unfold prepareForFitting stdSort
  rw [h, if_pos hs, hnil]
  exact ⟨_, rfl⟩

/-- the track crosses the surface of the element inside its boundary, in either direction -/
def Crossed (e : Element) : Prop :=
  ∃ surf hit, e.surface = some surf ∧ intersectWithSurface surf e.tp.hp e.tp.rp 0 V3.zero 0 true = .ok hit ∧ hit.found = true

/-- C50: the call returns only if every scatterer after the first element is crossed by the track of the element inside the
boundary of its surface (otherwise energy and velocity of the particle are read uninitialised). -/
theorem C50_needs_crossing {env : Env} {sort : List Element → List Element} (hsort : IsStdSort compareElements sort)
    {t t' : Traj} (h : t.prepareForFitting env sort = .ok t') (i : ℕ) (hi : i + 1 < t'.elems.length)
    (hs : t'.elems[i + 1].scatterer = true) : Crossed t'.elems[i + 1] := by
  obtain ⟨h1, h2, -⟩ := C50_jacobians hsort h
  have hc : ∃ p, Covers env t' p t'.elems[i + 1] := by
    rcases Nat.eq_zero_or_pos i with rfl | hpos
    · exact ⟨_, h2 hi⟩
    · obtain ⟨k, rfl⟩ : ∃ k, i = k + 1 := ⟨i - 1, by omega⟩
      exact ⟨_, h1 k hi⟩
  obtain ⟨p, nrj, ts, te, -, -, -, hc, -⟩ := hc
  obtain ⟨surf, el, en, b, q1, q2, q3, -, -⟩ := hc hs
  refine ⟨surf, ?_⟩
  unfold computeEnergyLossTrack at q2
  rw [Out.bind_eq_ok] at q2
  obtain ⟨hit, r1, r2⟩ := q2
  refine ⟨hit, q1, r1, ?_⟩
  by_contra hf
  rw [if_neg hf] at r2
  injection r2 with r2
  rw [← r2] at q3
  cases q3

theorem energyLossEntry_ok (env : Env) (mass : Dbl) (e : Element) (h : e.scatterer = true → Crossed e) :
    ∃ x, energyLossEntry env mass e = .ok x := by
  unfold energyLossEntry
  by_cases hs : e.scatterer = true
  · obtain ⟨surf, hit, h1, h2, h3⟩ := h hs
    rw [if_pos hs, h1]
    simp only [computeEnergyLossTrack, h2, Out.ok_bind, if_pos h3, computeEnergyLoss]
    exact ⟨_, rfl⟩
  · rw [if_neg hs]
    exact ⟨_, rfl⟩

theorem tangentAt_ok (t : Traj) (h : t.elems ≠ []) (s : Dbl) : ∃ v, t.tangentAt s = .ok v := by
  unfold tangentAt elementAt
  cases hl : t.elems with
  | nil => exact absurd hl h
  | cons e l => exact ⟨_, rfl⟩

theorem prepareLoop_defined (env : Env) (t : Traj) (ht : t.elems ≠ []) (l : List Element) (prevS : Dbl)
    (h : ∀ e ∈ l, e.scatterer = true → Crossed e) : ∃ l', prepareLoop env t prevS l = .ok l' := by
  induction l generalizing prevS with
  | nil => exact ⟨_, rfl⟩
  | cons e l ih =>
    obtain ⟨x, hx⟩ := energyLossEntry_ok env t.mass e (h e (by simp))
    obtain ⟨v, hv⟩ := tangentAt_ok t ht prevS
    obtain ⟨w, hw⟩ := tangentAt_ok t ht e.arc
    obtain ⟨l', hl⟩ := ih e.arc (fun e' he => h e' (by simp [he]))
    unfold prepareLoop elementJacobian
    simp only [hx, hv, hw, hl, Out.ok_bind, Out.pure_eq]
    exact ⟨_, rfl⟩

/-- C50 (partial): the call returns if there is an element, the arc lengths are finite and the scatterers are crossed inside
their boundary.  Missing: elements without these properties, which the interface can create (`C50_uninitialised_false`). -/
theorem C50_defined_partial (env : Env) {sort : List Element → List Element} (hsort : IsStdSort compareElements sort)
    (t : Traj) (h0 : t.elems ≠ []) (harc : ∀ e ∈ t.elems, ∃ x : ℝ, e.arc = fin x)
    (hc : ∀ e ∈ t.elems, e.scatterer = true → Crossed e) : ∃ t', t.prepareForFitting env sort = .ok t' := by
  have hs : StrictWeakOn compareElements t.elems := by
    refine strictWeakOn_key _ (fun e => finVal e.arc) _ ?_
    intro a ha b hb
    obtain ⟨x, hx⟩ := harc a ha
    obtain ⟨y, hy⟩ := harc b hb
    simp only [compareElements, hx, hy, finVal, fin_lt]
  have hp := hsort.perm _ hs
  unfold prepareForFitting stdSort
  rw [if_pos hs, Out.ok_bind]
  cases hl : sort t.elems with
  | nil => rw [hl] at hp; exact absurd (List.nil_perm.mp hp) h0
  | cons e l =>
    obtain ⟨l', h'⟩ := prepareLoop_defined env { t with elems := e :: l } (by simp) l 0
      (fun a ha => hc a (hp.subset (by rw [hl]; exact List.mem_cons_of_mem _ ha)))
    simp only [h', Out.ok_bind, Out.pure_eq]
    exact ⟨_, rfl⟩

theorem sort_pair {sort : List Element → List Element} (hsort : IsStdSort compareElements sort) {a b : Element} {x y : ℝ}
    (ha : a.arc = fin x) (hb : b.arc = fin y) (h : x < y) : stdSort sort compareElements [a, b] = .ok [a, b] := by
  have hs : StrictWeakOn compareElements [a, b] := by
    refine strictWeakOn_key _ (fun e => finVal e.arc) _ ?_
    have hm : ∀ e ∈ [a, b], ∃ z, e.arc = fin z := by
      intro e he
      simp only [List.mem_cons, List.not_mem_nil, or_false] at he
      rcases he with rfl | rfl
      · exact ⟨_, ha⟩
      · exact ⟨_, hb⟩
    intro p hp q hq
    obtain ⟨u, hu⟩ := hm p hp
    obtain ⟨v, hv⟩ := hm q hq
    simp only [compareElements, hu, hv, finVal, fin_lt]
  have h1 := hsort.perm _ hs
  have h2 := hsort.sorted _ hs
  unfold stdSort
  rw [if_pos hs]
  congr 1
  have hlen := h1.length_eq
  obtain ⟨p, q, hl⟩ := List.length_eq_two.mp hlen
  rw [hl] at h1 h2 ⊢
  have hpq : ¬ compareElements q p := by simpa using h2
  have hp : p ∈ [a, b] := h1.subset (by simp)
  simp only [List.mem_cons, List.not_mem_nil, or_false] at hp
  rcases hp with rfl | rfl
  · have := List.perm_singleton.mp (h1.cons_inv)
    rw [this]
  · have h3 : [p, q].Perm [p, a] := h1.trans (List.Perm.swap _ _ _)
    have := List.perm_singleton.mp (h3.cons_inv)
    injection this with this
    subst this
    exfalso
    apply hpq
    simp only [compareElements, ha, hb, fin_lt]
    exact h

theorem prepare_pair {env : Env} {sort : List Element → List Element} (hsort : IsStdSort compareElements sort) {a b : Element}
    {x y : ℝ} (ha : a.arc = fin x) (hb : b.arc = fin y) (h : x < y) {t t' : Traj} (ht : t.elems = [a, b])
    (hp : t.prepareForFitting env sort = .ok t') :
    ∃ a' b', t'.elems = [a', b'] ∧ noJac a' = noJac a ∧ noJac b' = noJac b := by
  unfold prepareForFitting at hp
  rw [ht, sort_pair hsort ha hb h, Out.ok_bind] at hp
  simp only [Out.bind_eq_ok, Out.pure_eq] at hp
  obtain ⟨l, q1, q2⟩ := hp
  have hmap := (prepareLoop_ok q1).1
  injection q2 with q2
  subst q2
  match l, hmap with
  | [b'], hmap =>
    refine ⟨_, b', rfl, rfl, ?_⟩
    simpa using hmap
  | [], hmap => simp at hmap
  | _ :: _ :: _, hmap => simp at hmap

open Example

/-- a propagation that returns the path length -/
def recordPath : M5 → Dbl → Dbl → V3 → V3 → V3 → Dbl → M5 := fun _ dw _ _ _ _ _ => fun _ _ => dw

theorem start_quarter : calculateSfromXY 0 0 (tpAt (-1) 1).hp (tpAt (-1) 1).rp = fin (Real.pi / 2) := C47_start_false

/-- C50 is false in general: for a track whose reference point is not at the origin, the start element has an arc length
different from 0, and the Jacobian of the second element does not cover the path from the first. -/
theorem C50_start_false {sort : List Element → List Element} (hsort : IsStdSort compareElements sort) (pos : V3)
    (prec : List Dbl) (id : ℕ) :
    ∃ t', (after (envJ recordPath) (make (tpAt (-1) 1)) [.measurement pos prec disk id false]).prepareForFitting
        (envJ recordPath) sort = .ok t' ∧
      ∃ a b, t'.elems = [a, b] ∧ a.arc = fin (Real.pi / 2) ∧ b.arc = fin (1 + Real.pi / 2) ∧
        ¬ Covers (envJ recordPath) t' a.arc b := by
  obtain ⟨-, e, fn, h2, h3, h4, -, -, h7⟩ := added_gen (g := recordPath) start_quarter
    (AddsDisk.measurement (ib := fun _ => true) pos prec id false)
  have ht : after (envJ recordPath) (make (tpAt (-1) 1)) [.measurement pos prec disk id false] = _ := h2
  rw [ht]
  have hpi := Real.pi_pos
  have hl : Real.cos (Real.arctan 1) ≠ 0 := (Real.cos_arctan_pos 1).ne'
  obtain ⟨t', ht'⟩ := C50_defined_partial (envJ recordPath) hsort
    ⟨tpAt (-1) 1, [Element.start (fin (Real.pi / 2)) (tpAt (-1) 1) 0, e], [], pionMass⟩ (by simp)
    (by
      intro a ha
      simp only [List.mem_cons, List.not_mem_nil, or_false] at ha
      rcases ha with rfl | rfl
      · exact ⟨_, rfl⟩
      · exact ⟨_, h3⟩)
    (by
      intro a ha hs
      simp only [List.mem_cons, List.not_mem_nil, or_false] at ha
      rcases ha with rfl | rfl
      · cases hs
      · rw [h7] at hs; cases hs)
  obtain ⟨a, b, q1, q2, q3⟩ := prepare_pair hsort (a := Element.start (fin (Real.pi / 2)) (tpAt (-1) 1) 0) (b := e) rfl h3
    (by linarith) rfl ht'
  have qa : (noJac a).arc = fin (Real.pi / 2) := by rw [q2]; rfl
  have qb : (noJac b).arc = fin (1 + Real.pi / 2) := by rw [q3]; exact h3
  have qt : (noJac b).tp = e.tp := by rw [q3]; rfl
  change a.arc = _ at qa
  change b.arc = _ at qb
  change b.tp = _ at qt
  refine ⟨t', ht', a, b, q1, qa, qb, ?_⟩
  have hcov := (C50_jacobians hsort ht').2.1 (by rw [q1]; simp)
  simp only [q1, List.getElem_cons_succ, List.getElem_cons_zero] at hcov
  obtain ⟨_, _, _, -, -, -, -, hj'⟩ := hcov
  rintro ⟨nrj, ts, te, -, -, -, -, hj⟩
  rw [hj'] at hj
  injection hj with hj
  have := congrFun (congrFun hj 0) 0
  simp only [envJ, recordPath, qa, qb, qt, h4, calculateLambda_hpR, zero_eq, fin_sub, cos_fin, fin_div _ hl, fin_inj] at this
  have := mul_right_cancel₀ (inv_ne_zero hl) this
  linarith

/-- C50 is false in general: a measurement on a surface with material is added without regard to the boundary of the
surface; if the track passes outside, preparing the fit reads uninitialised variables. -/
theorem C50_uninitialised_false {sort : List Element → List Element} (hsort : IsStdSort compareElements sort) (pos : V3)
    (prec : List Dbl) (id : ℕ) :
    ((make tp).step env (.measurement pos prec (diskB fun _ => false) id true)).2 = .ok true ∧
    ∃ w, (after env (make tp) [.measurement pos prec (diskB fun _ => false) id true]).prepareForFitting env sort = .ub w := by
  obtain ⟨h1, e, fn, h2, h3, h4, h5, h6, h7⟩ := added_gen (g := fun m _ _ _ _ _ _ => m) start_zero
    (AddsDisk.measurement (ib := fun _ => false) pos prec id true)
  refine ⟨h1, ?_⟩
  have ht : after env (make tp) [.measurement pos prec (diskB fun _ => false) id true] = _ := h2
  rw [ht]
  have hsrt := sort_pair hsort (a := Element.start (fin 0) tp 0) (b := e) rfl h3 (by norm_num)
  have hsrt' : stdSort sort compareElements [Element.start (fin 0) (tpAt 0 0) 0, e] = _ := hsrt
  rw [pointAt_re one_ne_zero] at h5
  obtain ⟨sv, hit, e1, e2, e3, -, e5, e6⟩ := C30_disk (om := 1) (tl := 1) (ph := fn) (d := 0) (z := 0) (rx := rX 1 0 0 0 1)
    (ry := rY 1 0 0 0 1) (rz := rZ 1 0 0 1) one_ne_zero one_ne_zero (diskB fun _ => false) 0 0 1 rfl 0 V3.zero 0 true
  have hf : hit.found = false := by
    cases hb : hit.found with
    | false => rfl
    | true => rw [e6] at hb; exact absurd (hb.2 rfl) (by simp [diskB])
  have hx : intersectWithSurface (diskB fun _ => false) e.tp.hp e.tp.rp 0 V3.zero 0 true = .ok hit := by
    rw [h4, h5]
    unfold intersectWithSurface
    rw [if_neg (by simp [diskB, SurfaceType.isZCylinder]), if_neg (by simp [diskB, SurfaceType.isZPlane]),
      if_pos (by simp [diskB, SurfaceType.isZDisk])]
    exact e1
  unfold prepareForFitting
  simp only [hsrt', Out.ok_bind, prepareLoop, elementJacobian, energyLossEntry, h7, h6, if_true, computeEnergyLossTrack, hx, hf,
    Bool.false_eq_true, if_false, Out.pure_eq, Out.ub_bind]
  exact ⟨_, rfl⟩

/-- non-trivial case for `C50_covers_partial` and `C50_defined_partial`: a track from the origin and a disk with material -/
theorem C50_example {sort : List Element → List Element} (hsort : IsStdSort compareElements sort) :
    ∃ t', (after env (make tp) [.scatterer disk]).prepareForFitting env sort = .ok t' ∧ t'.elems.length = 2 ∧
      ∀ hl : 0 < t'.elems.length, t'.elems[0].arc = 0 := by
  obtain ⟨h1, e, fn, h2, h3, h4, h5, h6, h7⟩ := added_gen (g := fun m _ _ _ _ _ _ => m) start_zero
    (AddsDisk.scatterer (ib := fun _ => true) fun _ => rfl)
  have ht : after env (make tp) [.scatterer disk] = _ := h2
  rw [ht]
  rw [pointAt_re one_ne_zero] at h5
  obtain ⟨sv, hit, e1, e2, e3, -, e5, e6⟩ := C30_disk (om := 1) (tl := 1) (ph := fn) (d := 0) (z := 0) (rx := rX 1 0 0 0 1)
    (ry := rY 1 0 0 0 1) (rz := rZ 1 0 0 1) one_ne_zero one_ne_zero disk 0 0 1 rfl 0 V3.zero 0 true
  have hf : hit.found = true := by
    rw [e6]
    exact ⟨by simp, fun _ => rfl⟩
  have hx : intersectWithSurface disk e.tp.hp e.tp.rp 0 V3.zero 0 true = .ok hit := by
    rw [h4, h5]
    unfold intersectWithSurface
    rw [if_neg (by simp [disk, diskB, SurfaceType.isZCylinder]), if_neg (by simp [disk, diskB, SurfaceType.isZPlane]),
      if_pos (by simp [disk, diskB, SurfaceType.isZDisk])]
    exact e1
  obtain ⟨t', ht'⟩ := C50_defined_partial env hsort
    ⟨tpAt 0 0, [Element.start (fin 0) (tpAt 0 0) 0, e], [], pionMass⟩ (by simp)
    (by
      intro a ha
      simp only [List.mem_cons, List.not_mem_nil, or_false] at ha
      rcases ha with rfl | rfl
      · exact ⟨0, rfl⟩
      · exact ⟨_, h3⟩)
    (by
      intro a ha hs
      simp only [List.mem_cons, List.not_mem_nil, or_false] at ha
      rcases ha with rfl | rfl
      · cases hs
      · exact ⟨disk, hit, h6, hx, hf⟩)
  obtain ⟨a, b, q1, q2, -⟩ := prepare_pair hsort (a := Element.start (fin 0) (tpAt 0 0) 0) (b := e) rfl h3 (by norm_num) rfl ht'
  have qa : (noJac a).arc = fin 0 := by rw [q2]; rfl
  refine ⟨t', ht', by simp [q1], fun _ => ?_⟩
  simp only [q1, List.getElem_cons_zero, zero_eq]
  exact qa

end Verif
