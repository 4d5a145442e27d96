import Verif.Model.RoundedUtilities
import Verif.Model.Gbl

/-!
# The interface to General Broken Lines in double precision

The arithmetic of `fittingAlgorithms/src/GBLInterface.cc` with the operations of Model/RoundedArith: the precision matrix of a scatterer and the
content of a result.  Everything else in this file copies numbers, as in Model/Gbl.
-/

open Classical

noncomputable section

namespace Verif

namespace Rnd

/-- the product of a 5x5 matrix and a vector of Eigen, fiveByFiveMatrix.hh:62-64: sums of five products, added in some order -/
def IsMulVec (fl : ℝ → ℝ) (mv : M5 → V5 → V5) : Prop :=
  ∀ a x i, SumOf fl ((List.finRange 5).map fun k => mulD fl (a i k) (x k)) (mv a x i)

/-- `TMatrixDSym::Similarity(b)` of ROOT, applied to `c`: first the product `b c`, then each entry of `(b c) bᵀ` is computed, or copied from
the opposite side of the diagonal; sums of five products, added in some order -/
def IsSimilarity (fl : ℝ → ℝ) (sim : M5 → M5 → M5) : Prop :=
  ∀ b c, ∃ bc : M5, (∀ i j, SumOf fl ((List.finRange 5).map fun k => mulD fl (b i k) (c k j)) (bc i j)) ∧
    ∀ i j, SumOf fl ((List.finRange 5).map fun k => mulD fl (bc i k) (b j k)) (sim b c i j) ∨
      SumOf fl ((List.finRange 5).map fun k => mulD fl (bc j k) (b i k)) (sim b c i j)

/-- precision matrix of a scatterer, GBLInterface.cc:174-181 -/
def scatteringPrecision (fl : ℝ → ℝ) (qms c1 c2 : Dbl) : Fin 2 → Fin 2 → Dbl :=
  let scalar := divD fl (subD fl (subD fl 1 (mulD fl c1 c1)) (mulD fl c2 c2)) qms
  ![![mulD fl scalar (subD fl 1 (mulD fl c1 c1)), mulD fl (mulD fl (mulD fl (-1) scalar) c1) c2],
    ![mulD fl (mulD fl (mulD fl (-1) scalar) c1) c2, mulD fl scalar (subD fl 1 (mulD fl c2 c2))]]

/-- the scatterer of a point, GBLInterface.cc:126-196; `precSize-3` is unsigned -/
def gblScatterer (fl : ℝ → ℝ) (e : Element) : Out ((Fin 2 → Dbl) × (Fin 2 → Fin 2 → Dbl)) :=
  let n := e.precisions.length
  match e.precisions[n - 3]?, e.precisions[n - 2]?, e.precisions[n - 1]? with
  | some qms, some c1, some c2 =>
    if n < 3 then .ub "index out of range" else .ok (![0, 0], scatteringPrecision fl qms c1 c2)
  | _, _, _ => .ub "index out of range"

/-- content of the object made by `_fillResults`, GBLInterface.cc:245-312; `mm`, `mv` and `sim` are the products of Eigen and ROOT -/
def fillContent (fl : ℝ → ℝ) (lm : Libm) (atn tn : ℝ → ℝ) (mm : M5 → M5 → M5) (mv : M5 → V5 → V5) (sim : M5 → M5 → M5) (gi : GblState) (f : GblFit)
    (t : Traj) (field : V3 → V3) (label : ℤ) : Out FitResults :=
  let r := f.results label
  let clCorrections := if r.1 ≠ 0 then V5.zero else r.2.1
  if label < 0 then .ub "index out of range" else
  match t.elems[label.toNat]? with
  | none => .ub "index out of range"
  | some e =>
    let jac := curvilinearToL3Jacobian fl lm atn tn mm e.tp.hp (field e.tp.rp)
    let corr := mv jac clCorrections
    let fitted : V5 := fun i => addD fl (e.tp.hp i) (corr i)
    let cov := sim jac r.2.2
    .ok ⟨true, gi.chi2, (gi.ndf % 2 ^ 32).toNat, gi.lostWeight, ⟨cov, fitted, e.tp.rp⟩⟩

end Rnd

end Verif
