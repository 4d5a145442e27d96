import Verif.Lemmas.Containers
import Verif.Model.TPStore
import Verif.Spec.Store
import Mathlib.Tactic.FinCases
import Mathlib.LinearAlgebra.Matrix.Determinant.Basic

/-!
# C01–C04: matrices, vectors, track parameter objects
-/

noncomputable section

namespace Verif

open Matrix

/-! ## C01 -/

/-- C01 fails: there is a matrix content for which `Unit()` does not produce the identity (the
content of every default-constructed matrix). -/
theorem C01_unit_false :
    ¬ ∀ m : M5, ∀ i j, M5.unit m i j = if i = j then (1 : Dbl) else 0 := by
  intro h
  have := h M5.zero 0 0
  simp [M5.unit, M5.zero] at this

/-- What `Unit()` really does: nothing, for every matrix. -/
theorem C01_unit_noop (m : M5) : M5.unit m = m := rfl

/-- C01 restricted to the case where it holds: `Unit()` gives the identity exactly if the matrix
already was the identity.  Missing for C01: all other matrices. -/
theorem C01_unit_partial (m : M5) :
    (∀ i j, M5.unit m i j = if i = j then (1 : Dbl) else 0) ↔
    ∀ i j, m i j = if i = j then (1 : Dbl) else 0 := Iff.rfl

/-! ## C02 -/

/-- C02: products and transposes of finite matrices are those of linear algebra. -/
theorem C02_products (A B : Matrix (Fin 5) (Fin 5) ℝ) (v : Fin 5 → ℝ) :
    M5.mul (M5.re A) (M5.re B) = M5.re (A * B) ∧
    M5.mulVec (M5.re A) (V5.re v) = V5.re (A *ᵥ v) ∧
    M5.transpose (M5.re A) = M5.re Aᵀ :=
  ⟨M5.mul_re A B, M5.mulVec_re A v, rfl⟩

/-- C02: the algebraic laws, for all finite matrices and vectors. -/
theorem C02_laws (a b c : M5) (v : V5) (ha : ∀ i j, (a i j).IsFin) (hb : ∀ i j, (b i j).IsFin)
    (hc : ∀ i j, (c i j).IsFin) (hv : ∀ i, (v i).IsFin) :
    M5.mulVec (M5.mul a b) v = M5.mulVec a (M5.mulVec b v) ∧
    M5.mul (M5.mul a b) c = M5.mul a (M5.mul b c) ∧
    M5.transpose (M5.transpose a) = a ∧
    M5.transpose (M5.mul a b) = M5.mul (M5.transpose b) (M5.transpose a) := by
  obtain ⟨A, rfl⟩ := M5.exists_re ha
  obtain ⟨B, rfl⟩ := M5.exists_re hb
  obtain ⟨C, rfl⟩ := M5.exists_re hc
  obtain ⟨w, rfl⟩ := V5.exists_re hv
  refine ⟨?_, ?_, rfl, ?_⟩
  · rw [M5.mul_re, M5.mulVec_re, M5.mulVec_re, M5.mulVec_re, Matrix.mulVec_mulVec]
  · rw [M5.mul_re, M5.mul_re, M5.mul_re, M5.mul_re, Matrix.mul_assoc]
  · rw [M5.mul_re, M5.transpose_re, M5.transpose_re, M5.transpose_re, M5.mul_re,
      Matrix.transpose_mul]

/-- C02 is about non-trivial matrices: a matrix with all entries different. -/
example : ∀ i j : Fin 5, ((M5.re (fun i j => 5 * (i : ℝ) + j)) i j).IsFin := fun _ _ => ⟨_, rfl⟩

/-- Finiteness is needed: with a NaN entry the transposed product need not exist as a real matrix,
and the product is NaN. -/
example : (M5.mul (fun _ _ => Dbl.nan) M5.zero) 0 0 = Dbl.nan := by simp [M5.mul]

/-! ## C03 -/

/-- C03: a vector of at least 25 numbers is stored row by row and read back in order; a shorter
vector is undefined behaviour. -/
theorem C03_rowwise (o : List Dbl) :
    (25 ≤ o.length → ∃ m, M5.ofList o = .ok m ∧
      (∀ (r c : Fin 5) (h : 5 * r.val + c.val < o.length), m r c = o[5 * r.val + c.val]) ∧
      M5.array m = o.take 25) ∧
    (o.length < 25 → ∃ w, M5.ofList o = .ub w) := by
  constructor
  · intro h
    refine ⟨fun r c => o[5 * r.val + c.val]'(by omega), by simp only [M5.ofList, h, dif_pos],
      fun r c hh => rfl, ?_⟩
    apply List.ext_getElem
    · simp [M5.array, h]
    · intro n h1 h2
      simp only [M5.array, List.getElem_ofFn, List.getElem_take]
      congr 1
      exact Nat.div_add_mod n 5
  · intro h
    exact ⟨"fiveByFiveMatrix: read past the end of std::vector", by simp [M5.ofList, not_le.mpr h]⟩

/-- hypotheses of C03 are met: 25 different numbers -/
example : 25 ≤ (List.ofFn (fun k : Fin 25 => Dbl.fin k)).length := by simp

/-- C03 for the matrix/vector interplay: reading back what `array()` gives restores the matrix. -/
theorem C03_roundtrip (m : M5) : M5.ofList (M5.array m) = .ok m := by
  have hl : 25 ≤ (M5.array m).length := by simp [M5.array]
  simp only [M5.ofList, hl, dif_pos]
  congr 1
  funext r c
  simp only [M5.array, List.getElem_ofFn]
  congr 1
  · ext; simp; omega
  · ext; simp

/-! ## C04 -/

/-- the slots of an object as seen by its getters -/
def TP.slot (t : TP) : Spec.Slot → Dbl
  | .helix k => t.hp k
  | .cov r c => t.cov r c
  | .ref a => if a = 0 then t.rp.x else if a = 1 then t.rp.y else t.rp.z

/-- what a caller intends with a call, in terms of slots only -/
def TPOp.intent : TPOp → Spec.Effect
  | .construct o => .write o (fun _ => true) (fun _ => 0)
  | .constructHelix o hp rp => .write o (fun _ => true) (fun s => match s with
      | .helix k => hp k
      | .cov _ _ => 0
      | .ref a => if a = 0 then rp.x else if a = 1 then rp.y else rp.z)
  | .constructCopy o src => .copy o src
  | .assign o src => .copy o src
  | .setHp o hp => .write o (fun s => s matches .helix _) (fun s => match s with
      | .helix k => hp k
      | _ => 0)
  | .setAll o hp cov rp => .write o (fun _ => true) (fun s => match s with
      | .helix k => hp k
      | .cov r c => cov r c
      | .ref a => if a = 0 then rp.x else if a = 1 then rp.y else rp.z)
  | .setRef o rp => .write o (fun s => s matches .ref _) (fun s => match s with
      | .ref a => if a = 0 then rp.x else if a = 1 then rp.y else rp.z
      | _ => 0)
  | .setCov o cov => .write o (fun s => s matches .cov _ _) (fun s => match s with
      | .cov r c => cov r c
      | _ => 0)
  | .writeHp o k a => .write o (fun s => decide (s = .helix k)) (fun _ => a)
  | .writeCov o r c a => .write o (fun s => decide (s = .cov r c)) (fun _ => a)
  | .writeRef o rp => .write o (fun s => s matches .ref _) (fun s => match s with
      | .ref a => if a = 0 then rp.x else if a = 1 then rp.y else rp.z
      | _ => 0)

/-- C04: after any history of calls on any number of objects every getter returns the most recently
written value of that slot of that object. -/
theorem C04_last_write (h : List TPOp) (o : ℕ) (s : Spec.Slot) :
    (TPStore.after h o).slot s = Spec.lastWritten (h.map TPOp.intent) o s := by
  induction h generalizing o s with
  | nil => cases s <;> simp [TPStore.after, TP.default, TP.slot, Spec.lastWritten, V5.zero, M5.zero, V3.zero]
  | cons op h ih =>
    simp only [TPStore.after, List.map_cons]
    cases op with
    | constructCopy q src =>
      simp only [TPOp.run, TPOp.intent, Spec.lastWritten, TPStore.put]
      rw [← ih, ← ih]; split <;> rfl
    | assign q src =>
      simp only [TPOp.run, TPOp.intent, Spec.lastWritten, TPStore.put]
      rw [← ih, ← ih]
      by_cases h1 : o = q
      · by_cases h2 : q = src
        · simp [h1, h2]
        · simp [h1, h2, TP.assign]
      · simp [h1]
    | construct q | constructHelix q _ _ | setHp q _ | setAll q _ _ _ | setRef q _ | setCov q _
    | writeHp q _ _ | writeCov q _ _ _ | writeRef q _ =>
      simp only [TPOp.run, TPOp.intent, Spec.lastWritten, TPStore.put, ← ih]
      by_cases h1 : o = q
      · rw [if_pos h1]
        subst h1
        cases s <;>
          simp [TP.slot, TP.default, TP.ofHelix, TP.setHp, TP.setAll, TP.setRef, TP.setCov,
            V5.zero, M5.zero, V3.zero, V5.set, M5.set]
      · simp [h1]

/-- C04: writing a slot of one object never changes another object. -/
theorem C04_frame (h : List TPOp) (op : TPOp) (o : ℕ)
    (hne : match op.intent with | .write q _ _ => o ≠ q | .copy q _ => o ≠ q) (s : Spec.Slot) :
    (TPStore.after (op :: h) o).slot s = (TPStore.after h o).slot s := by
  rw [C04_last_write, C04_last_write]
  simp only [List.map_cons]
  cases hi : op.intent with
  | write q w v =>
    rw [hi] at hne
    simp only [Spec.lastWritten]
    rw [if_neg]; rintro ⟨h1, _⟩; exact hne h1
  | copy q src =>
    rw [hi] at hne
    simp only [Spec.lastWritten]
    rw [if_neg hne]

/-- C04 non-trivial history: write phi0 of object 1, copy it to object 2, change object 1; object 2
keeps the first value. -/
example : (TPStore.after [.writeHp 1 PHI0 (.fin 7), .constructCopy 2 1, .writeHp 1 PHI0 (.fin 3)] 2).slot
    (.helix PHI0) = .fin 3 := by
  rw [C04_last_write]
  simp [TPOp.intent, Spec.lastWritten]

/-- C04 for fit results: every component read back is the one set last. -/
theorem C04_fitResults (f : FitResults) (v : Bool) (c : Dbl) (n : ℕ) (w : Dbl) (t : TP) :
    (f.setResults v c n w t).valid = v ∧ (f.setResults v c n w t).chisquare = c ∧
    (f.setResults v c n w t).ndf = n ∧ (f.setResults v c n w t).lostweight = w ∧
    (f.setResults v c n w t).estParams = t ∧ FitResults.default.valid = false :=
  ⟨rfl, rfl, rfl, rfl, rfl, rfl⟩

end Verif
