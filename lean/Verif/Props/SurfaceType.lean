import Verif.Model.Surface
import Verif.Spec.PropertySet
import Batteries.Data.Nat.Lemmas
import Mathlib.Tactic.Linarith
import Mathlib.Tactic.NormNum

/-!
# Surface types: C62, C63
-/

open Classical Verif.Spec

noncomputable section

namespace Verif

open SurfaceType

/-! ## C62: surface types are property sets -/

/-- all calls of `setProperty` of a history, most recent first, on a default constructed type -/
def SurfaceType.history : List (ℕ × Bool) → Out SurfaceType
  | [] => .ok SurfaceType.empty
  | (p, b) :: h => do let t ← SurfaceType.history h; setProperty t p b

theorem setProperty_ok {t t' : SurfaceType} {p : ℕ} {b : Bool} (h : setProperty t p b = .ok t') :
    p < 32 ∧ ∀ i : Fin 32, t' i = if i.val = p then b else t i := by
  unfold setProperty at h
  split at h
  · next hp => exact ⟨hp, fun i => by cases h; rfl⟩
  · cases h

/-- C62: setting one property gives it the value and leaves all others unchanged; an index of 32 or more is
rejected with an exception (and only such an index). -/
theorem C62_setProperty (t : SurfaceType) (p : ℕ) (b : Bool) :
    (∀ h : p < 32, ∃ t', setProperty t p b = .ok t' ∧ t' ⟨p, h⟩ = b ∧ ∀ i : Fin 32, i.val ≠ p → t' i = t i) ∧
    (32 ≤ p → setProperty t p b = .throw "std::out_of_range") := by
  constructor
  · intro h
    refine ⟨_, by unfold setProperty; rw [if_pos h], by simp, ?_⟩
    intro i hi
    simp [hi]
  · intro h
    unfold setProperty
    rw [if_neg (by omega)]

/-- C62: after any history of `setProperty` calls every property has the value last assigned to it. -/
theorem C62_history (h : List (ℕ × Bool)) (t : SurfaceType) (ht : SurfaceType.history h = .ok t) (i : Fin 32) :
    t i = propertyAfter h i.val := by
  induction h generalizing t with
  | nil => cases ht; rfl
  | cons a h ih =>
    obtain ⟨p, b⟩ := a
    simp only [SurfaceType.history, Out.bind_eq_ok] at ht
    obtain ⟨t0, h0, h1⟩ := ht
    have := (setProperty_ok h1).2 i
    rw [this, ih t0 h0]
    by_cases e : i.val = p
    · simp [propertyAfter, e]
    · have e' : ¬ p = i.val := fun q => e q.symm
      simp [propertyAfter, e, e']

/-- C62: a history is accepted exactly if all indices are below 32. -/
theorem C62_history_accepted (h : List (ℕ × Bool)) :
    (∃ t, SurfaceType.history h = .ok t) ↔ ∀ a ∈ h, a.1 < 32 := by
  induction h with
  | nil => simp [SurfaceType.history]
  | cons a h ih =>
    obtain ⟨p, b⟩ := a
    simp only [SurfaceType.history, Out.bind_eq_ok, List.mem_cons, forall_eq_or_imp]
    constructor
    · rintro ⟨t, t0, h0, h1⟩
      exact ⟨(setProperty_ok h1).1, ih.mp ⟨t0, h0⟩⟩
    · rintro ⟨hp, hh⟩
      obtain ⟨t0, h0⟩ := ih.mpr hh
      obtain ⟨t', h1, -⟩ := (C62_setProperty t0 p b).1 hp
      exact ⟨t', t0, h0, h1⟩

example : ∃ t, SurfaceType.history [(1, true), (4, false), (0, true), (4, true)] = .ok t ∧
    t 0 = true ∧ t 1 = true ∧ t 4 = false ∧ t 2 = false :=
  ⟨_, rfl, rfl, rfl, rfl, rfl⟩

theorem foldlM_props (ps : List ℕ) (t0 t : SurfaceType)
    (h : ps.foldlM (fun t p => setProperty t p true) t0 = .ok t) (i : Fin 32) :
    t i = true ↔ t0 i = true ∨ i.val ∈ ps := by
  induction ps generalizing t0 with
  | nil =>
    simp only [List.foldlM_nil, Out.pure_eq, Out.ok.injEq] at h
    subst h; simp
  | cons p ps ih =>
    simp only [List.foldlM_cons, Out.bind_eq_ok] at h
    obtain ⟨t1, h1, h2⟩ := h
    rw [ih t1 h2, (setProperty_ok h1).2 i]
    by_cases e : i.val = p <;> simp [e]

/-- C62: a type constructed from properties has exactly these properties. -/
theorem C62_built (ps : List ℕ) (t : SurfaceType) (h : ofProps ps = .ok t) (i : Fin 32) :
    t i = true ↔ i.val ∈ ps := by
  rw [foldlM_props ps _ t h i]
  simp [SurfaceType.empty]

/-- C62: the constructor throws exactly if one of the properties is not below 32. -/
theorem C62_built_accepted (ps : List ℕ) : (∃ t, ofProps ps = .ok t) ↔ ∀ p ∈ ps, p < 32 := by
  unfold ofProps
  generalize SurfaceType.empty = t0
  induction ps generalizing t0 with
  | nil => simp
  | cons p ps ih =>
    simp only [List.foldlM_cons, Out.bind_eq_ok, List.mem_cons, forall_eq_or_imp]
    constructor
    · rintro ⟨t, t1, h1, h2⟩
      exact ⟨(setProperty_ok h1).1, (ih t1).mp ⟨t, h2⟩⟩
    · rintro ⟨hp, hh⟩
      obtain ⟨t1, h1, -⟩ := (C62_setProperty t0 p true).1 hp
      obtain ⟨t, h2⟩ := (ih t1).mpr hh
      exact ⟨t, t1, h1, h2⟩

/-- C62: the queries read the properties of the enumeration (AidaTTGeometry.hh:135-144). -/
theorem C62_queries (ps : List ℕ) (t : SurfaceType) (h : ofProps ps = .ok t) :
    (isCylinder t = true ↔ Cylinder ∈ ps) ∧ (isPlane t = true ↔ Plane ∈ ps) ∧ (isSensitive t = true ↔ Sensitive ∈ ps) ∧
    (isHelper t = true ↔ Helper ∈ ps) ∧ (isParallelToZ t = true ↔ ParallelToZ ∈ ps) ∧
    (isOrthogonalToZ t = true ↔ OrthogonalToZ ∈ ps) ∧ (isVisible t = true ↔ Invisible ∉ ps) ∧
    (isZCylinder t = true ↔ Cylinder ∈ ps ∧ ParallelToZ ∈ ps) ∧ (isZPlane t = true ↔ Plane ∈ ps ∧ ParallelToZ ∈ ps) ∧
    (isZDisk t = true ↔ Plane ∈ ps ∧ OrthogonalToZ ∈ ps) := by
  have b := C62_built ps t h
  have b0 := b 0; have b1 := b 1; have b2 := b 2; have b3 := b 3; have b4 := b 4; have b5 := b 5
  have b6 := b 6
  refine ⟨b0, b1, b2, b3, b4, b5, ?_, ?_, ?_, ?_⟩
  · have b6' : t 6 = true ↔ 6 ∈ ps := b6
    rw [← b6', isVisible]; simp
  · have b0' : t 0 = true ↔ 0 ∈ ps := b0
    have b4' : t 4 = true ↔ 4 ∈ ps := b4
    rw [← b0', ← b4', isZCylinder]; simp
  · have b1' : t 1 = true ↔ 1 ∈ ps := b1
    have b4' : t 4 = true ↔ 4 ∈ ps := b4
    rw [← b1', ← b4', isZPlane]; simp
  · have b1' : t 1 = true ↔ 1 ∈ ps := b1
    have b5' : t 5 = true ↔ 5 ∈ ps := b5
    rw [← b1', ← b5', isZDisk]; simp

example : ∃ t, ofProps [Plane, Sensitive, ParallelToZ] = .ok t ∧ isZPlane t = true ∧ isZDisk t = false :=
  ⟨_, rfl, rfl, rfl⟩

/-- C62: `isSimilar` is the subset relation: every property of the other type is also one of this type. -/
theorem C62_isSimilar (t other : SurfaceType) :
    isSimilar t other = true ↔ ∀ i : Fin 32, other i = true → t i = true := by
  unfold isSimilar toUlong
  simp only [beq_iff_eq]
  constructor
  · intro h i hi
    have := congrArg (fun n => n.testBit i.val) h
    simp only [Nat.testBit_and, Nat.testBit_ofBits_lt _ _ i.isLt] at this
    simpa [hi] using this
  · intro h
    apply Nat.eq_of_testBit_eq
    intro k
    rw [Nat.testBit_and]
    by_cases hk : k < 32
    · rw [Nat.testBit_ofBits_lt _ _ hk, Nat.testBit_ofBits_lt _ _ hk]
      have := h ⟨k, hk⟩
      cases ho : other ⟨k, hk⟩ <;> simp_all
    · rw [Nat.testBit_ofBits_ge _ _ (by omega)]
      rfl

/-- C62: `isSimilar` is reflexive and transitive, and mutual similarity is equality. -/
theorem C62_isSimilar_order :
    (∀ t : SurfaceType, isSimilar t t = true) ∧
    (∀ t₁ t₂ t₃ : SurfaceType, isSimilar t₁ t₂ = true → isSimilar t₂ t₃ = true → isSimilar t₁ t₃ = true) ∧
    (∀ t₁ t₂ : SurfaceType, isSimilar t₁ t₂ = true → isSimilar t₂ t₁ = true → t₁ = t₂) := by
  simp only [C62_isSimilar]
  refine ⟨fun t i h => h, fun t1 t2 t3 h h' i hi => h i (h' i hi), fun t1 t2 h h' => ?_⟩
  funext i
  have a := h i; have b := h' i
  cases h1 : t1 i <;> cases h2 : t2 i <;> simp_all

/-- C62: `isSimilar` is not symmetric. -/
example : ∃ t o, ofProps [Plane, Sensitive] = .ok t ∧ ofProps [Plane] = .ok o ∧
    isSimilar t o = true ∧ isSimilar o t = false := by
  refine ⟨_, _, rfl, rfl, ?_, ?_⟩
  · rw [C62_isSimilar]; decide
  · rw [Bool.eq_false_iff, Ne, C62_isSimilar]; decide

/-! ## C63: parallel and orthogonal exclude each other -/

/-- C63: for any normal (finite or not) and any tolerance up to 1/2, the two checks never both succeed; neither
do the cached bits after both calls, whatever the type before. -/
theorem C63_exclusive (t : SurfaceType) (normal : V3) (ε : ℝ) (hε : ε ≤ 1 / 2) :
    ¬ ((checkParallelToZ t normal (.fin ε)).1 = true ∧
       (checkOrthogonalToZ (checkParallelToZ t normal (.fin ε)).2 normal (.fin ε)).1 = true) := by
  rintro ⟨h1, h2⟩
  simp only [checkParallelToZ, checkOrthogonalToZ, if_true, decide_eq_true_eq] at h1 h2
  generalize Dbl.abs (normal.dot ⟨0, 0, 1⟩) = p at h1 h2
  cases p with
  | fin p =>
    rw [Dbl.one_eq, Dbl.fin_sub, Dbl.abs_fin, Dbl.fin_lt] at h2
    rw [Dbl.fin_lt] at h1
    have := neg_abs_le (p - 1)
    linarith
  | inf b => cases b <;> simp_all
  | nan => simp_all

/-- C63: in particular with the default tolerance. -/
theorem C63_default (t : SurfaceType) (normal : V3) :
    ¬ ((checkParallelToZ t normal defaultEps).1 = true ∧ (checkOrthogonalToZ t normal defaultEps).1 = true) := by
  have h : defaultEps = .fin (1e-6 : ℝ) := by
    unfold defaultEps; norm_num
  rw [h]
  exact C63_exclusive t normal _ (by norm_num)

/-- C63: the cached bits are the answers; no other property changes. -/
theorem C63_cached (t : SurfaceType) (normal : V3) (ε : Dbl) :
    isParallelToZ (checkParallelToZ t normal ε).2 = (checkParallelToZ t normal ε).1 ∧
    isOrthogonalToZ (checkOrthogonalToZ t normal ε).2 = (checkOrthogonalToZ t normal ε).1 ∧
    (∀ i : Fin 32, i ≠ 4 → (checkParallelToZ t normal ε).2 i = t i) ∧
    (∀ i : Fin 32, i ≠ 5 → (checkOrthogonalToZ t normal ε).2 i = t i) := by
  refine ⟨rfl, rfl, fun i hi => ?_, fun i hi => ?_⟩
  · simp [checkParallelToZ, hi]
  · simp [checkOrthogonalToZ, hi]

/-- C63: what the checks answer for a finite normal. -/
theorem C63_meaning (t : SurfaceType) (x y z ε : ℝ) :
    ((checkParallelToZ t (V3.re x y z) (.fin ε)).1 = true ↔ |z| < ε) ∧
    ((checkOrthogonalToZ t (V3.re x y z) (.fin ε)).1 = true ↔ |(|z|) - 1| < ε) := by
  simp [checkParallelToZ, checkOrthogonalToZ, V3.dot, V3.re]

example : (checkParallelToZ SurfaceType.empty (V3.re 1 0 0) defaultEps).1 = true ∧
    (checkOrthogonalToZ SurfaceType.empty (V3.re 0 0 1) defaultEps).1 = true := by
  have h : defaultEps = .fin (1e-6 : ℝ) := by
    unfold defaultEps; norm_num
  rw [h]
  refine ⟨(C63_meaning _ 1 0 0 _).1.mpr (by norm_num), (C63_meaning _ 0 0 1 _).2.mpr (by norm_num)⟩

end Verif
