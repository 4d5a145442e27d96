import Verif.Model.TrackParameters

/-!
# Histories of calls on `trackParameters` objects

Objects live in a store indexed by natural numbers (their addresses).  An object that does not
exist yet is represented by the default-constructed value.
-/

noncomputable section

namespace Verif

/-- One call of the public interface of `trackParameters`, core/include/trackParameters.hh:30-100. -/
inductive TPOp where
  /-- `trackParameters o;` -/
  | construct (o : ℕ)
  /-- `trackParameters o(hp, rp);` -/
  | constructHelix (o : ℕ) (hp : V5) (rp : V3)
  /-- `trackParameters o(src);` -/
  | constructCopy (o src : ℕ)
  /-- `o = src;` -/
  | assign (o src : ℕ)
  /-- `o.setTrackParameters(hp)` -/
  | setHp (o : ℕ) (hp : V5)
  /-- `o.setTrackParameters(hp, cov, rp)` -/
  | setAll (o : ℕ) (hp : V5) (cov : M5) (rp : V3)
  /-- `o.setReferencePoint(rp)` -/
  | setRef (o : ℕ) (rp : V3)
  /-- `o.setCovarianceMatrix(cov)` -/
  | setCov (o : ℕ) (cov : M5)
  /-- `o(k) = a` or `o.parameters()(k) = a` -/
  | writeHp (o : ℕ) (k : Fin 5) (a : Dbl)
  /-- `o.covarianceMatrix()(r,c) = a` -/
  | writeCov (o : ℕ) (r c : Fin 5) (a : Dbl)
  /-- `o.referencePoint() = rp` -/
  | writeRef (o : ℕ) (rp : V3)

/-- The store of objects. -/
abbrev TPStore := ℕ → TP

/-- replace one object -/
def TPStore.put (st : TPStore) (o : ℕ) (t : TP) : TPStore := fun i => if i = o then t else st i

/-- Effect of one call on the store. -/
def TPOp.run (st : TPStore) : TPOp → TPStore
  | .construct o => st.put o TP.default
  | .constructHelix o hp rp => st.put o (TP.ofHelix hp rp)
  | .constructCopy o src => st.put o ⟨(st src).cov, (st src).hp, (st src).rp⟩
  | .assign o src => st.put o (if o = src then st o else (st o).assign (st src))
  | .setHp o hp => st.put o ((st o).setHp hp)
  | .setAll o hp cov rp => st.put o ((st o).setAll hp cov rp)
  | .setRef o rp => st.put o ((st o).setRef rp)
  | .setCov o cov => st.put o ((st o).setCov cov)
  | .writeHp o k a => st.put o { st o with hp := (st o).hp.set k a }
  | .writeCov o r c a => st.put o { st o with cov := (st o).cov.set r c a }
  | .writeRef o rp => st.put o { st o with rp := rp }

/-- The store after a history of calls, most recent call first. -/
def TPStore.after : List TPOp → TPStore
  | [] => fun _ => TP.default
  | op :: h => op.run (TPStore.after h)

end Verif
