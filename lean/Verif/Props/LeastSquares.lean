import Verif.Props.FitResults
import Verif.Props.GblPoints
import Verif.Props.Undefined

/-!
# C127, C128: fits with a least squares fitter

The GBL package is not part of the repository.  Here the fitter is one that minimises the sum of squares which belongs to the points
it is given: a track with small corrections `x k` at the points and small changes of direction at the scatterers.
-/

open Classical

noncomputable section

namespace Verif

open Dbl Traj World

/-! ## Specification of a least squares fit -/

/-- a point with finite numbers: Jacobian, measurement (projection, residuals, precisions), scatterer (residuals, precision matrix) -/
structure RealPoint where
  jac : Matrix (Fin 5) (Fin 5) ℝ
  meas : Option (Matrix (Fin 2) (Fin 2) ℝ × (Fin 2 → ℝ) × (Fin 2 → ℝ))
  scat : Option ((Fin 2 → ℝ) × Matrix (Fin 2) (Fin 2) ℝ)

/-- the same point in `double` -/
def RealPoint.gbl (p : RealPoint) : GblPoint :=
  ⟨fun i j => fin (p.jac i j), p.meas.map fun m => (fun i j => fin (m.1 i j), fun i => fin (m.2.1 i), fun i => fin (m.2.2 i)),
    p.scat.map fun s => (fun i => fin (s.1 i), fun i j => fin (s.2 i j))⟩

/-- change of the direction: the second and third of the five parameters -/
def kick (κ : Fin 2 → ℝ) : Fin 5 → ℝ := ![0, κ 0, κ 1, 0, 0]

/-- the corrections at the points are transported by the Jacobians, with changes of direction at the scatterers only -/
structure BrokenLine (ps : List RealPoint) (x : ℕ → Fin 5 → ℝ) (κ : ℕ → Fin 2 → ℝ) : Prop where
  step : ∀ k p, ps[k + 1]? = some p → x (k + 1) = p.jac.mulVec (x k + kick (κ k))
  smooth : ∀ k p, ps[k]? = some p → p.scat = none → κ k = 0

/-- contribution of a point to the sum of squares; the offsets are the last two parameters -/
def pointCost (p : RealPoint) (x : Fin 5 → ℝ) (κ : Fin 2 → ℝ) : ℝ :=
  (match p.meas with
    | none => 0
    | some (P, r, w) => ∑ i, w i * (r i - P.mulVec ![x 3, x 4] i) ^ 2) +
  (match p.scat with
    | none => 0
    | some (b, S) => (κ - b) ⬝ᵥ S.mulVec (κ - b))

/-- the sum of squares -/
def cost (ps : List RealPoint) (x : ℕ → Fin 5 → ℝ) (κ : ℕ → Fin 2 → ℝ) : ℝ :=
  ∑ k : Fin ps.length, pointCost ps[k] (x k) (κ k)

/-- the one and only minimum -/
structure IsFit (ps : List RealPoint) (x : ℕ → Fin 5 → ℝ) (κ : ℕ → Fin 2 → ℝ) : Prop where
  line : BrokenLine ps x κ
  least : ∀ y ν, BrokenLine ps y ν → cost ps x κ ≤ cost ps y ν
  unique : ∀ y ν, BrokenLine ps y ν → cost ps y ν = cost ps x κ → ∀ k < ps.length, y k = x k ∧ ν k = κ k

/-- a least squares fitter: it reports an error or finds the minimum.  The result for a label is the correction at one of the points,
before or behind the scatterer; nothing is said about the numbering of the points. -/
def IsLeastSquares (gbl : Fitter) : Prop := ∀ ps : List RealPoint, ps ≠ [] →
  ((gbl (ps.map RealPoint.gbl)).ret ≠ 0 ∧ ∀ l, ((gbl (ps.map RealPoint.gbl)).results l).1 ≠ 0) ∨
  ∃ x κ, IsFit ps x κ ∧ (gbl (ps.map RealPoint.gbl)).ret = 0 ∧ (gbl (ps.map RealPoint.gbl)).chi2 = fin (cost ps x κ) ∧
    ∀ l, ∃ k < ps.length, ∃ c C, (gbl (ps.map RealPoint.gbl)).results l = (0, (fun i => fin (c i)), C) ∧
      (c = x k ∨ c = x k + kick (κ k))

theorem gbl_injective : Function.Injective RealPoint.gbl := by
  rintro ⟨j, m, s⟩ ⟨j', m', s'⟩ h
  unfold RealPoint.gbl at h
  simp only [GblPoint.mk.injEq] at h
  obtain ⟨h1, h2, h3⟩ := h
  have e1 : j = j' := by
    ext i k
    exact (fin_inj _ _).mp (congrFun (congrFun h1 i) k)
  have e2 : m = m' := by
    refine Option.map_injective ?_ h2
    rintro ⟨a, b, c⟩ ⟨a', b', c'⟩ h
    simp only [Prod.mk.injEq] at h
    obtain ⟨h1, h2, h3⟩ := h
    refine Prod.ext ?_ (Prod.ext ?_ ?_)
    · ext i k; exact (fin_inj _ _).mp (congrFun (congrFun h1 i) k)
    · funext i; exact (fin_inj _ _).mp (congrFun h2 i)
    · funext i; exact (fin_inj _ _).mp (congrFun h3 i)
  have e3 : s = s' := by
    refine Option.map_injective ?_ h3
    rintro ⟨a, b⟩ ⟨a', b'⟩ h
    simp only [Prod.mk.injEq] at h
    obtain ⟨h1, h2⟩ := h
    refine Prod.ext ?_ ?_
    · funext i; exact (fin_inj _ _).mp (congrFun h1 i)
    · ext i k; exact (fin_inj _ _).mp (congrFun (congrFun h2 i) k)
  rw [e1, e2, e3]

/-- there is such a fitter -/
theorem exists_leastSquares : ∃ gbl, IsLeastSquares gbl := by
  have key : ∀ l : List GblPoint, ∃ f : GblFit, ∀ ps : List RealPoint, ps ≠ [] → ps.map RealPoint.gbl = l →
      (f.ret ≠ 0 ∧ ∀ l, (f.results l).1 ≠ 0) ∨
      ∃ x κ, IsFit ps x κ ∧ f.ret = 0 ∧ f.chi2 = fin (cost ps x κ) ∧
        ∀ l, ∃ k < ps.length, ∃ c C, f.results l = (0, (fun i => fin (c i)), C) ∧ (c = x k ∨ c = x k + kick (κ k)) := by
    intro l
    by_cases h : ∃ ps x κ, ps ≠ [] ∧ ps.map RealPoint.gbl = l ∧ IsFit ps x κ
    · obtain ⟨ps, x, κ, h0, h1, h2⟩ := h
      refine ⟨⟨0, fin (cost ps x κ), 0, 0, fun _ => (0, (fun i => fin (x 0 i)), M5.zero)⟩, fun ps' _ h' => Or.inr ?_⟩
      have : ps' = ps := (List.map_injective_iff.mpr gbl_injective) (h'.trans h1.symm)
      subst this
      exact ⟨x, κ, h2, rfl, rfl, fun _ => ⟨0, List.length_pos_of_ne_nil h0, x 0, M5.zero, rfl, Or.inl rfl⟩⟩
    · exact ⟨⟨1, 0, 0, 0, fun _ => (1, V5.zero, M5.zero)⟩, fun ps' _ h' => Or.inl ⟨one_ne_zero, fun _ => one_ne_zero⟩⟩
  choose f hf using key
  exact ⟨f, fun ps h => hf _ ps h rfl⟩

/-! ## Sums of squares -/

/-- the precisions are not negative, and the scatterers have no residuals -/
structure Weighted (p : RealPoint) : Prop where
  meas : ∀ P r w, p.meas = some (P, r, w) → ∀ i, 0 ≤ w i
  scat : ∀ b S, p.scat = some (b, S) → b = 0 ∧ ∀ v : Fin 2 → ℝ, 0 ≤ v ⬝ᵥ S.mulVec v

theorem pointCost_nonneg {p : RealPoint} (h : Weighted p) (x : Fin 5 → ℝ) (κ : Fin 2 → ℝ) : 0 ≤ pointCost p x κ := by
  unfold pointCost
  refine add_nonneg ?_ ?_
  · cases hm : p.meas with
    | none => exact le_rfl
    | some m =>
      obtain ⟨P, r, w⟩ := m
      exact Finset.sum_nonneg fun i _ => mul_nonneg (h.meas P r w hm i) (sq_nonneg _)
  · cases hs : p.scat with
    | none => exact le_rfl
    | some s =>
      obtain ⟨b, S⟩ := s
      exact (h.scat b S hs).2 _

theorem cost_nonneg {ps : List RealPoint} (h : ∀ p ∈ ps, Weighted p) (x : ℕ → Fin 5 → ℝ) (κ : ℕ → Fin 2 → ℝ) : 0 ≤ cost ps x κ :=
  Finset.sum_nonneg fun _ _ => pointCost_nonneg (h _ (List.getElem_mem _)) _ _

theorem zero_line (ps : List RealPoint) : BrokenLine ps (fun _ => 0) (fun _ => 0) where
  step k p _ := by
    rw [zero_add, show kick 0 = 0 by funext i; fin_cases i <;> rfl, Matrix.mulVec_zero]
  smooth _ _ _ _ := rfl

/-- contribution of a point without corrections: residuals squared times precision -/
def startCost (p : RealPoint) : ℝ :=
  match p.meas with
  | none => 0
  | some (_, r, w) => w 0 * r 0 ^ 2 + w 1 * r 1 ^ 2

theorem pointCost_zero {p : RealPoint} (h : ∀ b S, p.scat = some (b, S) → b = 0) : pointCost p 0 0 = startCost p := by
  unfold pointCost startCost
  have e : (match p.scat with
    | none => (0 : ℝ)
    | some (b, S) => ((0 : Fin 2 → ℝ) - b) ⬝ᵥ S.mulVec (0 - b)) = 0 := by
    cases hs : p.scat with
    | none => rfl
    | some s =>
      obtain ⟨b, S⟩ := s
      simp [h b S hs]
  rw [e, add_zero]
  cases hm : p.meas with
  | none => rfl
  | some m =>
    obtain ⟨P, r, w⟩ := m
    have : (![(0 : ℝ), 0] : Fin 2 → ℝ) = 0 := by funext i; fin_cases i <;> rfl
    simp only [Pi.zero_apply, Fin.sum_univ_two]
    rw [this, Matrix.mulVec_zero]
    simp only [Pi.zero_apply, sub_zero]

theorem cost_zero {ps : List RealPoint} (h : ∀ p ∈ ps, ∀ b S, p.scat = some (b, S) → b = 0) :
    cost ps (fun _ => 0) (fun _ => 0) = (ps.map startCost).sum := by
  show ∑ k : Fin ps.length, pointCost ps[k] 0 0 = _
  refine (Finset.sum_congr rfl fun (k : Fin ps.length) _ => pointCost_zero (h ps[k] (List.getElem_mem _))).trans ?_
  have := List.sum_ofFn (f := fun k : Fin ps.length => startCost (ps.get k))
  refine this.symm.trans ?_
  congr 1
  apply List.ext_getElem <;> simp

/-- a fit of points without residuals: no corrections -/
theorem fit_zero {ps : List RealPoint} {x : ℕ → Fin 5 → ℝ} {κ : ℕ → Fin 2 → ℝ} (h : IsFit ps x κ) (hw : ∀ p ∈ ps, Weighted p)
    (h0 : ∀ p ∈ ps, startCost p = 0) : cost ps x κ = 0 ∧ ∀ k < ps.length, x k = 0 ∧ κ k = 0 := by
  have e0 : cost ps (fun _ => 0) (fun _ => 0) = 0 := by
    rw [cost_zero fun p hp b S hs => ((hw p hp).scat b S hs).1]
    exact List.sum_eq_zero fun a ha => by
      obtain ⟨p, hp, rfl⟩ := List.mem_map.mp ha
      exact h0 p hp
  have e1 : cost ps x κ = 0 := le_antisymm (e0 ▸ h.least _ _ (zero_line ps)) (cost_nonneg hw x κ)
  refine ⟨e1, fun k hk => ?_⟩
  obtain ⟨a, b⟩ := h.unique _ _ (zero_line ps) (by rw [e0, e1]) k hk
  exact ⟨a.symm, b.symm⟩

/-! ## From the elements to the points -/

/-- not a negative number -/
def NotNeg (p : Dbl) : Prop := ∀ x, p = fin x → 0 ≤ x

theorem notNeg_square (q : Dbl) : NotNeg (q * q) := by
  intro x h
  cases q with
  | fin y =>
    rw [fin_mul, fin_inj] at h
    rw [← h]; exact mul_self_nonneg y
  | inf s => cases s <;> cases h
  | nan => cases h

theorem notNeg_zero : NotNeg 0 := by
  intro x h
  rw [zero_eq, fin_inj] at h
  exact h.le

/-- precisions are not negative; those of a scatterer end with two zeros -/
structure ElemWeighted (e : Element) : Prop where
  prec : ∀ p ∈ e.precisions, NotNeg p
  scat : e.scatterer = true → ∃ l q, e.precisions = l ++ [q, 0, 0]

/-- residuals squared times precision of an element -/
def elemCost (e : Element) : ℝ :=
  match e.measurement, e.residuals, e.precisions with
  | true, fin r0 :: fin r1 :: _, fin w0 :: fin w1 :: _ => w0 * r0 ^ 2 + w1 * r1 ^ 2
  | _, _, _ => 0

theorem gblPoint_inv {e : Element} {pt : GblPoint} (h : gblPoint e = .ok pt) :
    (e.measurement = false → pt.meas = none) ∧
    (e.measurement = true → ∃ P r0 r1 l w0 w1 l', pt.meas = some (P, ![r0, r1], ![w0, w1]) ∧ e.residuals = r0 :: r1 :: l ∧
      e.precisions = w0 :: w1 :: l') ∧
    (e.scatterer = false → pt.scat = none) ∧ (e.scatterer = true → ∃ s, gblScatterer e = .ok s ∧ pt.scat = some s) := by
  unfold gblPoint at h
  cases hj : e.jac with
  | none => rw [hj] at h; cases h
  | some j =>
    rw [hj] at h
    have two : ∀ {l : List Dbl} {f : Fin 2 → Dbl}, readTwo l = .ok f → ∃ a b l', l = a :: b :: l' ∧ f = ![a, b] := by
      intro l f hf
      match l, hf with
      | [], hf => cases hf
      | [_], hf => cases hf
      | a :: b :: l', hf =>
        injection hf with hf
        exact ⟨a, b, l', rfl, hf.symm⟩
    have meas : ∀ m, gblMeasurement e = .ok m → ∃ P r0 r1 l w0 w1 l', m = (P, ![r0, r1], ![w0, w1]) ∧
        e.residuals = r0 :: r1 :: l ∧ e.precisions = w0 :: w1 :: l' := by
      intro m h1
      unfold gblMeasurement at h1
      cases hd : e.measDirs with
      | none => rw [hd] at h1; cases h1
      | some dirs =>
        rw [hd] at h1
        dsimp only at h1
        by_cases hl : 2 < dirs.length
        · rw [if_pos hl] at h1; cases h1
        · rw [if_neg hl] at h1
          cases hq : e.proj with
          | none => rw [hq] at h1; cases h1
          | some proj =>
            rw [hq] at h1
            simp only [Out.bind_eq_ok] at h1
            obtain ⟨r, hr, w, hw, h1⟩ := h1
            rw [Out.pure_eq] at h1
            injection h1 with h1
            subst h1
            obtain ⟨r0, r1, l, e1, rfl⟩ := two hr
            obtain ⟨w0, w1, l', e2, rfl⟩ := two hw
            exact ⟨_, r0, r1, l, w0, w1, l', rfl, e1, e2⟩
    cases hm : e.measurement <;> cases hs : e.scatterer
    · simp only [hm, hs, Bool.false_eq_true, if_false, Out.pure_eq, Out.ok_bind, Out.ok.injEq] at h
      subst h
      simp
    · simp only [hm, hs, Bool.false_eq_true, if_false, if_true, Out.pure_eq, Out.ok_bind, Out.bind_eq_ok, Out.ok.injEq] at h
      obtain ⟨_, ⟨s, h1, rfl⟩, h⟩ := h
      subst h
      simp [h1]
    · simp only [hm, hs, Bool.false_eq_true, if_false, if_true, Out.pure_eq, Out.ok_bind, Out.bind_eq_ok, Out.ok.injEq] at h
      obtain ⟨_, ⟨m, h1, rfl⟩, h⟩ := h
      subst h
      obtain ⟨P, r0, r1, l, w0, w1, l', rfl, e1, e2⟩ := meas m h1
      simp [e1, e2]
    · simp only [hm, hs, if_true, Out.pure_eq, Out.ok_bind, Out.bind_eq_ok, Out.ok.injEq] at h
      obtain ⟨_, ⟨m, h1, rfl⟩, _, ⟨s, h2, rfl⟩, h⟩ := h
      subst h
      obtain ⟨P, r0, r1, l, w0, w1, l', rfl, e1, e2⟩ := meas m h1
      simp [e1, e2, h2]

theorem startCost_elem {e : Element} {p : RealPoint} (h : gblPoint e = .ok p.gbl) : startCost p = elemCost e := by
  obtain ⟨h1, h2, -, -⟩ := gblPoint_inv h
  unfold startCost
  cases hm : e.measurement with
  | false =>
    have := h1 hm
    simp only [RealPoint.gbl, Option.map_eq_none_iff] at this
    rw [this]
    unfold elemCost
    rw [hm]
  | true =>
    obtain ⟨P, r0, r1, l, w0, w1, l', e1, e2, e3⟩ := h2 hm
    simp only [RealPoint.gbl, Option.map_eq_some_iff] at e1
    obtain ⟨⟨P', r, w⟩, e4, e5⟩ := e1
    simp only [Prod.mk.injEq] at e5
    obtain ⟨-, e6, e7⟩ := e5
    have a0 : fin (r 0) = r0 := congrFun e6 0
    have a1 : fin (r 1) = r1 := congrFun e6 1
    have b0 : fin (w 0) = w0 := congrFun e7 0
    have b1 : fin (w 1) = w1 := congrFun e7 1
    rw [e4]
    unfold elemCost
    rw [hm, e2, e3, ← a0, ← a1, ← b0, ← b1]

theorem weighted_elem {e : Element} {p : RealPoint} (h : gblPoint e = .ok p.gbl) (he : ElemWeighted e) : Weighted p := by
  obtain ⟨h1, h2, h3, h4⟩ := gblPoint_inv h
  constructor
  · intro P r w hm i
    have hme : e.measurement = true := by
      by_contra hme
      have := h1 (by simpa using hme)
      simp [RealPoint.gbl, hm] at this
    obtain ⟨P', r0, r1, l, w0, w1, l', e1, -, e3⟩ := h2 hme
    simp only [RealPoint.gbl, hm, Option.map_some, Option.some.injEq, Prod.mk.injEq] at e1
    have := congrFun e1.2.2 i
    refine he.prec (fin (w i)) ?_ (w i) rfl
    rw [e3]
    fin_cases i
    · rw [show fin (w ((fun i => i) (⟨0, by decide⟩ : Fin 2))) = w0 from congrFun e1.2.2 0]; simp
    · rw [show fin (w ((fun i => i) (⟨1, by decide⟩ : Fin 2))) = w1 from congrFun e1.2.2 1]; simp
  · intro b S hs
    have hsc : e.scatterer = true := by
      by_contra hsc
      have := h3 (by simpa using hsc)
      simp [RealPoint.gbl, hs] at this
    obtain ⟨s, e1, e2⟩ := h4 hsc
    obtain ⟨l, q, hq⟩ := he.scat hsc
    rw [gblScatterer_last3 e l q 0 0 hq] at e1
    injection e1 with e1
    simp only [RealPoint.gbl, hs, Option.map_some, Option.some.injEq] at e2
    rw [← e1, Prod.mk.injEq] at e2
    obtain ⟨e3, e4⟩ := e2
    have b0 : b = 0 := by
      funext i
      have := congrFun e3 i
      fin_cases i
      · exact (fin_inj _ _).mp (this.trans zero_eq)
      · exact (fin_inj _ _).mp (this.trans zero_eq)
    refine ⟨b0, fun v => ?_⟩
    have nq : NotNeg q := he.prec q (by rw [hq]; simp)
    have s00 : fin (S 0 0) = scatteringPrecision q 0 0 0 0 := congrFun (congrFun e4 0) 0
    have s01 : fin (S 0 1) = scatteringPrecision q 0 0 0 1 := congrFun (congrFun e4 0) 1
    have s10 : fin (S 1 0) = scatteringPrecision q 0 0 1 0 := congrFun (congrFun e4 1) 0
    have s11 : fin (S 1 1) = scatteringPrecision q 0 0 1 1 := congrFun (congrFun e4 1) 1
    have hdiag : ∃ k : ℝ, 0 ≤ k ∧ S 0 0 = k ∧ S 0 1 = 0 ∧ S 1 0 = 0 ∧ S 1 1 = k := by
      cases q with
      | fin q =>
        by_cases hq0 : q = 0
        · subst hq0
          exfalso
          simp [scatteringPrecision, zero_eq, one_eq, fin_div_zero one_ne_zero, inf_mul_fin] at s00
        · have := nq q rfl
          simp [scatteringPrecision, zero_eq, one_eq, fin_div _ hq0] at s00 s01 s10 s11
          exact ⟨q⁻¹, by positivity, s00, s01, s10, s11⟩
      | inf s =>
        have hd : (1 : Dbl) / inf s = fin 0 := by rw [one_eq]; cases s <;> rfl
        have hn : (1 : Dbl) - 0 * 0 - 0 * 0 = 1 := by simp [zero_eq, one_eq]
        simp only [scatteringPrecision, hn, hd] at s00 s01 s10 s11
        simp [zero_eq, one_eq] at s00 s01 s10 s11
        exact ⟨0, le_rfl, s00, s01, s10, s11⟩
      | nan =>
        exfalso
        simp [scatteringPrecision] at s00
    obtain ⟨k, hk, d0, d1, d2, d3⟩ := hdiag
    have : v ⬝ᵥ S.mulVec v = k * (v 0 ^ 2 + v 1 ^ 2) := by
      simp only [dotProduct, Matrix.mulVec, Fin.sum_univ_two, d0, d1, d2, d3]
      ring
    rw [this]
    positivity

theorem gblPoints_forall {l : List Element} {ps : List GblPoint} (h : gblPoints l = .ok ps) :
    List.Forall₂ (fun e p => gblPoint e = .ok p) l ps := by
  induction l generalizing ps with
  | nil => injection h with h; subst h; exact .nil
  | cons e l ih =>
    simp only [gblPoints, Out.bind_eq_ok] at h
    obtain ⟨p, h1, l', h2, h3⟩ := h
    rw [Out.pure_eq] at h3
    injection h3 with h3
    subst h3
    exact .cons h1 (ih h2)

theorem points_elems {l : List Element} {rs : List RealPoint} (h : gblPoints l = .ok (rs.map RealPoint.gbl)) :
    List.Forall₂ (fun e p => gblPoint e = .ok p.gbl) l rs := by
  have := gblPoints_forall h
  rwa [List.forall₂_map_right_iff] at this

theorem points_cost {l : List Element} {rs : List RealPoint} (h : gblPoints l = .ok (rs.map RealPoint.gbl)) :
    (rs.map startCost).sum = (l.map elemCost).sum := by
  congr 1
  have := points_elems h
  induction this with
  | nil => rfl
  | cons a b ih =>
    rw [List.map_cons, List.map_cons, startCost_elem a]
    congr 1
    exact ih (by
      simp only [gblPoints, Out.bind_eq_ok] at h
      obtain ⟨p, h1, l', h2, h3⟩ := h
      rw [Out.pure_eq] at h3
      injection h3 with h3
      rw [List.map_cons, List.cons.injEq] at h3
      rw [h2, h3.2])

theorem points_weighted {l : List Element} {rs : List RealPoint} (h : gblPoints l = .ok (rs.map RealPoint.gbl))
    (hw : ∀ e ∈ l, ElemWeighted e) : ∀ p ∈ rs, Weighted p := by
  intro p hp
  have hf := points_elems h
  clear h
  induction hf with
  | nil => cases hp
  | cons a b ih =>
    rcases List.mem_cons.mp hp with rfl | hp
    · exact weighted_elem a (hw _ (by simp))
    · exact ih (fun e he => hw e (by simp [he])) hp

/-! ## From the calls to the elements -/

/-- the user gives no negative precision -/
def UserPrecision : AddOp → Prop
  | .measurement _ prec _ _ _ => ∀ p ∈ prec, NotNeg p
  | _ => True

/-- the hits are on the track: each measured position is the point where the track crosses the surface, where the new element is; its
local coordinates are finite -/
def HitsOnTrack (env : Env) (t : Traj) : List AddOp → Prop
  | [] => True
  | op :: h => HitsOnTrack env t h ∧ ∀ pos prec surf id sc, op = .measurement pos prec surf id sc →
      (∃ u v, surf.globalToLocal pos = ⟨fin u, fin v⟩) ∧
      ∀ e, ((after env t h).step env op).1.elems = (after env t h).withStart.elems ++ [e] → e.tp.rp = pos

theorem withStart_all {t : Traj} (P : Element → Prop) (h : ∀ e ∈ t.elems, P e)
    (h0 : P (Element.start (calculateSfromXY (V3.zero).x (V3.zero).y t.ref.hp t.ref.rp) t.ref 0)) : ∀ e ∈ t.withStart.elems, P e := by
  unfold withStart
  by_cases h1 : t.elems = []
  · rw [if_pos h1]
    intro e he
    simp only [addElement, h1, List.nil_append, List.mem_singleton] at he
    subst he
    exact h0
  · rwa [if_neg h1]

theorem step_weighted {env : Env} {t : Traj} {op : AddOp} (hu : UserPrecision op) (h : ∀ e ∈ t.elems, ElemWeighted e) :
    ∀ e ∈ (t.step env op).1.elems, ElemWeighted e := by
  have hw := withStart_all ElemWeighted h ⟨by simp [Element.start], by simp [Element.start]⟩
  by_cases ha : Adds op
  · obtain ⟨back, o, h1, h2, h3⟩ := step_cases env t op ha
    rw [h2]
    rcases append_cases t.withStart o with ⟨x, q1, q2⟩ | ⟨q1, -⟩
    · rw [q2]
      intro e he
      simp only [List.mem_append, List.mem_singleton] at he
      rcases he with he | rfl
      · exact hw e he
      · rcases h3 with ⟨p, pr, s, i, sc, h4, h5⟩ | ⟨s, h4, h5⟩
        · rw [q1] at h5
          obtain ⟨hit, tp, w, proj, r1, r2, r3, r4, rfl⟩ := measurement_ok h5.symm
          rw [h4] at hu
          have hm : ∀ q : Dbl, ∀ y ∈ measurementPrecision pr sc (q), NotNeg y := by
            intro q y hy
            unfold measurementPrecision at hy
            cases sc
            · exact hu y (by simpa using hy)
            · simp only [if_true, List.mem_append, List.mem_singleton] at hy
              rcases hy with ((hy | rfl) | rfl) | rfl
              · exact hu y hy
              · exact notNeg_square q
              · exact notNeg_zero
              · exact notNeg_zero
          constructor
          · intro y hy
            dsimp only at hy
            split_ifs at hy
            · rw [List.mem_append, List.mem_singleton] at hy
              rcases hy with hy | rfl
              · exact hm _ y hy
              · exact notNeg_zero
            · exact hm _ y hy
          · rintro (rfl : sc = true)
            simp only [measurementPrecision, if_true]
            rw [if_neg (by simp)]
            exact ⟨pr, _, by rw [List.append_assoc, List.append_assoc]; rfl⟩
        · rw [q1] at h5
          obtain ⟨hit, tp, w, proj, r1, r2, r3, r4, rfl⟩ := scatterer_ok h5.symm
          refine ⟨?_, fun _ => ⟨[], _, rfl⟩⟩
          intro y hy
          simp only [List.mem_cons, List.not_mem_nil, or_false] at hy
          rcases hy with rfl | rfl | rfl
          · exact notNeg_square _
          · exact notNeg_zero
          · exact notNeg_zero
    · rw [q1]; exact hw
  · cases op with
    | measurement => exact absurd trivial ha
    | scatterer => exact absurd trivial ha
    | setMass m => exact h

theorem after_weighted {env : Env} {t : Traj} {ops : List AddOp} (hu : ∀ op ∈ ops, UserPrecision op)
    (h : ∀ e ∈ t.elems, ElemWeighted e) : ∀ e ∈ (after env t ops).elems, ElemWeighted e := by
  induction ops with
  | nil => exact h
  | cons op ops ih => exact step_weighted (hu op (by simp)) (ih fun o ho => hu o (by simp [ho]))

theorem after_exact {env : Env} {t : Traj} {ops : List AddOp} (hx : HitsOnTrack env t ops)
    (h : ∀ e ∈ t.elems, e.measurement = true → e.residuals = [fin 0, fin 0]) :
    ∀ e ∈ (after env t ops).elems, e.measurement = true → e.residuals = [fin 0, fin 0] := by
  induction ops with
  | nil => exact h
  | cons op ops ih =>
    obtain ⟨hx1, hx2⟩ := hx
    have hw := withStart_all (t := after env t ops) (fun e => e.measurement = true → e.residuals = [fin 0, fin 0]) (ih hx1)
      (by simp [Element.start])
    show ∀ e ∈ ((after env t ops).step env op).1.elems, _
    by_cases ha : Adds op
    · obtain ⟨back, o, h1, h2, h3⟩ := step_cases env (after env t ops) op ha
      rw [h2] at hx2 ⊢
      rcases append_cases (after env t ops).withStart o with ⟨x, q1, q2⟩ | ⟨q1, -⟩
      · rw [q2] at hx2 ⊢
        intro e he hm
        simp only [List.mem_append, List.mem_singleton] at he
        rcases he with he | rfl
        · exact hw e he hm
        · rcases h3 with ⟨p, pr, s, i, sc, h4, h5⟩ | ⟨s, h4, h5⟩
          · rw [q1] at h5
            obtain ⟨⟨u, v, huv⟩, hrp⟩ := hx2 p pr s i sc h4
            have hrp := hrp e rfl
            obtain ⟨hit, tp, w, proj, r1, r2, r3, r4, rfl⟩ := measurement_ok h5.symm
            have hxx : hit.xx = p := by
              rw [← (move_const r3).2.2]; exact hrp
            show [_, _] = _
            rw [hxx, huv]
            simp
          · rw [q1] at h5
            obtain ⟨hit, tp, w, proj, r1, r2, r3, r4, rfl⟩ := scatterer_ok h5.symm
            cases hm
      · rw [q1]; exact hw
    · cases op with
      | measurement => exact absurd trivial ha
      | scatterer => exact absurd trivial ha
      | setMass m => exact ih hx1

/-- an element of the prepared trajectory is one of the elements before, up to the Jacobian -/
theorem prepared_mem {env : Env} {sort : List Element → List Element} (hsort : IsStdSort compareElements sort) {t0 t : Traj}
    (h : t0.prepareForFitting env sort = .ok t) {e : Element} (he : e ∈ t.elems) : ∃ e0 ∈ t0.elems, noJac e0 = noJac e := by
  obtain ⟨-, -, -, h4, -, -⟩ := C50_elements hsort h
  obtain ⟨e0, h0, h1⟩ := List.mem_map.mp (h4.subset (List.mem_map_of_mem (f := noJac) he))
  exact ⟨e0, h0, h1⟩

theorem weighted_noJac {e e' : Element} (h : noJac e = noJac e') (he : ElemWeighted e) : ElemWeighted e' := by
  have h1 : e.precisions = e'.precisions := (congrArg Element.precisions h : (noJac e).precisions = (noJac e').precisions)
  have h2 : e.scatterer = e'.scatterer := (congrArg Element.scatterer h : (noJac e).scatterer = (noJac e').scatterer)
  exact ⟨h1 ▸ he.prec, by rw [← h1, ← h2]; exact he.scat⟩

/-! ## C127 -/

/-- C127: if all hits are on the track, a least squares fit does not change the track: the result for each element has the
parameters of the element, and chi² is 0 if the fit succeeds. -/
theorem C127_unchanged {gbl : Fitter} (hg : IsLeastSquares gbl) {env : Env} {sort : List Element → List Element}
    (hsort : IsStdSort compareElements sort) {tp : TP} {ops : List AddOp} (hu : ∀ op ∈ ops, UserPrecision op)
    (hx : HitsOnTrack env (make tp) ops) {t : Traj} (hp : (after env (make tp) ops).prepareForFitting env sort = .ok t)
    {rs : List RealPoint} (hps : gblPoints t.elems = .ok (rs.map RealPoint.gbl))
    {trajs : ℕ → Option (Traj × (V3 → V3))} {before between : List Op} {i : ℕ} {field : V3 → V3}
    (ht : ((init trajs).run gbl before).trajs i = some (t, field)) (hn : NoFit between) (hs : ∀ t'', Op.setTraj i t'' ∉ between)
    {n : ℕ} {e : Element} (he : t.elems[n]? = some e) {om tl ph d z bx by' bz : ℝ} (hhp : e.tp.hp = hpR om tl ph d z)
    (hfield : field e.tp.rp = V3.re bx by' bz) (hB : bx ≠ 0 ∨ by' ≠ 0 ∨ bz ≠ 0) {w1 : World} {p : ℕ}
    (h1 : (((((init trajs).run gbl before).fit gbl i).1).run gbl between).getResults n = (w1, .ok p)) :
    ∃ r, w1.heap p = some r ∧ r.estParams.hp = e.tp.hp ∧ r.estParams.rp = e.tp.rp ∧
      ((((init trajs).run gbl before).fit gbl i).2 = .ok true → r.chisquare = fin 0) := by
  obtain ⟨t', field', r, r1, r2, r3⟩ := C54_last_fit gbl trajs before i ht hps between hn n h1
  obtain ⟨rfl, rfl⟩ := r3 hs
  have hw : ∀ p ∈ rs, Weighted p := points_weighted hps fun e he => by
    obtain ⟨e0, h0, h00⟩ := prepared_mem hsort hp he
    exact weighted_noJac h00 (after_weighted hu (by simp [make]) e0 h0)
  have hz : ∀ p ∈ rs, startCost p = 0 := by
    intro p hpm
    have hf := points_elems hps
    obtain ⟨e', he', hpe⟩ : ∃ e' ∈ t'.elems, gblPoint e' = .ok p.gbl := by
      clear he h1 r2 ht hps hp
      generalize t'.elems = l at hf
      induction hf with
      | nil => cases hpm
      | cons a b ih =>
        rcases List.mem_cons.mp hpm with rfl | hpm
        · exact ⟨_, by simp, a⟩
        · obtain ⟨e', q1, q2⟩ := ih (fun p hp => hw p (by simp [hp])) hpm
          exact ⟨e', by simp [q1], q2⟩
    rw [startCost_elem hpe]
    obtain ⟨e0, h0, h00⟩ := prepared_mem hsort hp he'
    have hm0 : e0.measurement = e'.measurement := (congrArg Element.measurement h00 : (noJac e0).measurement = (noJac e').measurement)
    have hr0 : e0.residuals = e'.residuals := (congrArg Element.residuals h00 : (noJac e0).residuals = (noJac e').residuals)
    unfold elemCost
    cases hm : e'.measurement with
    | false => rfl
    | true =>
      have := after_exact hx (by simp [make]) e0 h0 (by rw [hm0, hm])
      rw [← hr0, this]
      cases e'.precisions with
      | nil => rfl
      | cons a l =>
        cases l with
        | nil => cases a <;> rfl
        | cons b l => cases a <;> cases b <;> simp
  have hne : rs ≠ [] := by
    rintro rfl
    have := (points_elems hps).length_eq
    have h2 : n < t'.elems.length := (List.getElem?_eq_some_iff.mp he).1
    simp at this
    rw [this] at h2
    simp at h2
  obtain ⟨J, hJ⟩ := curvilinearToL3_fin om tl ph d z bx by' bz hB
  obtain ⟨n', e', hn', he', hrp, J', hJ', p1, p2, -⟩ := r2.params
  have hnn : n = n' := by exact_mod_cast hn'
  subst hnn
  rw [he'] at he
  injection he with he
  subst he
  rw [hhp, hfield, hJ] at hJ'
  have hJ0 : V5.add e'.tp.hp (M5.mulVec J' V5.zero) = e'.tp.hp := by
    subst hJ'
    rw [show V5.zero = V5.re 0 from by funext i; simp [V5.zero, V5.re], M5.mulVec_re, Matrix.mulVec_zero, hhp, hpR_eq_re]
    funext i
    simp [V5.add, V5.re]
  refine ⟨r, r1, ?_, hrp, ?_⟩
  · rcases hg rs hne with ⟨-, f2⟩ | ⟨x, κ, hfit, -, -, f4⟩
    · obtain ⟨err, c, C, hres⟩ : ∃ err c C, (gbl (rs.map RealPoint.gbl)).results n = (err, c, C) := ⟨_, _, _, rfl⟩
      have := f2 n
      rw [hres] at this
      rw [p2 err c C hres this, hJ0]
    · obtain ⟨-, f5⟩ := fit_zero hfit hw hz
      obtain ⟨k, hk, c, C, hres, hc⟩ := f4 n
      have hc0 : c = 0 := by
        obtain ⟨x0, k0⟩ := f5 k hk
        rcases hc with rfl | rfl
        · exact x0
        · rw [x0, k0, zero_add]; funext i; fin_cases i <;> rfl
      rw [p1 _ C hres, hc0, show (fun i => fin ((0 : Fin 5 → ℝ) i)) = V5.zero from by funext i; rw [Pi.zero_apply, ← zero_eq]; rfl, hJ0]
  · intro hok
    rcases hg rs hne with ⟨f1, -⟩ | ⟨x, κ, hfit, -, f3, -⟩
    · have hrun := (fit_ok gbl ((init trajs).run gbl before) i ht hps).1
      rw [hrun] at hok
      injection hok with hok
      exact absurd (of_decide_eq_true hok) f1
    · rw [r2.chi2, f3, (fit_zero hfit hw hz).1]

/-! ## C128 -/

/-- C128: a least squares fit that succeeds does not make things worse: chi² is not larger than the sum of the squared residuals times
precisions of the elements, whatever the residuals are. -/
theorem C128_improves {gbl : Fitter} (hg : IsLeastSquares gbl) {env : Env} {sort : List Element → List Element}
    (hsort : IsStdSort compareElements sort) {tp : TP} {ops : List AddOp} (hu : ∀ op ∈ ops, UserPrecision op) {t : Traj}
    (hp : (after env (make tp) ops).prepareForFitting env sort = .ok t) {rs : List RealPoint}
    (hps : gblPoints t.elems = .ok (rs.map RealPoint.gbl)) (w : World) {i : ℕ} {field : V3 → V3} (ht : w.trajs i = some (t, field))
    (hok : (w.fit gbl i).2 = .ok true) :
    ∃ c, (w.fit gbl i).1.gi.chi2 = fin c ∧ 0 ≤ c ∧ c ≤ (t.elems.map elemCost).sum := by
  have hw : ∀ p ∈ rs, Weighted p := points_weighted hps fun e he => by
    obtain ⟨e0, h0, h00⟩ := prepared_mem hsort hp he
    exact weighted_noJac h00 (after_weighted hu (by simp [make]) e0 h0)
  obtain ⟨a1, -, -, a4, -⟩ := fit_ok gbl w i ht hps
  rw [a1] at hok
  injection hok with hok
  have hret := of_decide_eq_true hok
  have hne : rs ≠ [] := by
    rintro rfl
    have := (points_elems hps).length_eq
    have hl : t.elems = [] := by simpa using this
    obtain ⟨-, -, -, -, -, first, rest, helems, -⟩ := prepare_ok hsort hp
    rw [hl] at helems
    cases helems
  rcases hg rs hne with ⟨f1, -⟩ | ⟨x, κ, hfit, -, f3, -⟩
  · exact absurd hret f1
  · refine ⟨cost rs x κ, by rw [a4, f3], cost_nonneg hw x κ, ?_⟩
    rw [← points_cost hps, ← cost_zero fun p hp b S hs => ((hw p hp).scat b S hs).1]
    exact hfit.least _ _ (zero_line rs)

end Verif
