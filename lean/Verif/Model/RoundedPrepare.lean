import Verif.Model.RoundedMomentum
import Verif.Model.RoundedPropagation
import Verif.Model.RoundedTrajectory
import Verif.Model.RoundedUtilities
import Verif.Model.Trajectory

/-!
# `prepareForFitting` in double precision

As in `Verif.Model.Trajectory`, with every operation rounded.  Path lengths are only compared in the sort, which is exact, so that this is that of
`Verif.Model.Trajectory`.  `getJacobian` of the environment is the propagation in double precision, for example
`Rnd.analyticalJacobian fl lm`.
-/

open Classical

noncomputable section

namespace Verif

namespace Rnd

/-- `trajectory::tangentAt`, trajectory.cc:84-92 -/
def tangentAt (fl : ℝ → ℝ) (lm : Libm) (atn : ℝ → ℝ) (t : Traj) (s : Dbl) : Out V3 := do
  let element ← elementAt fl t s
  pure (calculateTangent fl lm atn (subD fl s element.arc) element.tp.hp)

/-- the energy loss entry of the Jacobian, trajectory.cc:366-378 -/
def energyLossEntry (fl : ℝ → ℝ) (lm : Libm) (at2 : ℝ → ℝ → ℝ) (asn atn : ℝ → ℝ) (lg : LogLib) (env : Env) (mass : Dbl) (e : Element) : Out Dbl :=
  if e.scatterer then
    match e.surface with
    | none => .ub "null reference: surface()"
    | some surf => do
      let el ← computeEnergyLossTrack fl lm at2 asn atn lg env.globalField surf e.tp none none mass
      match el.energy, el.beta with
      | some en, some b => .ok (divD fl (mulD fl 2 el.deltaE) (mulD fl (mulD fl b b) en))
      | _, _ => .ub "uninitialised energy or beta"
  else .ok 0

/-- body of the loop of `prepareForFitting`, trajectory.cc:353-389: the Jacobian for element `e` -/
def elementJacobian (fl : ℝ → ℝ) (lm : Libm) (at2 : ℝ → ℝ → ℝ) (asn atn : ℝ → ℝ) (lg : LogLib) (env : Env) (t : Traj) (prevS : Dbl) (e : Element) :
    Out M5 := do
  let cosLambda := cosD lm (calculateLambda fl atn e.tp.hp)
  let bField := env.field e.tp.rp
  let qbyp := calculateQoverP fl lm atn e.tp.hp bField.z
  let currS := e.arc
  let dw := divD fl (subD fl currS prevS) cosLambda
  let nrjLoss ← energyLossEntry fl lm at2 asn atn lg env t.mass e
  let tstart ← tangentAt fl lm atn t prevS
  let tend ← tangentAt fl lm atn t currS
  pure (env.getJacobian M5.zero dw qbyp tstart tend bField nrjLoss)

/-- the loop of `prepareForFitting`, trajectory.cc:350-393 -/
def prepareLoop (fl : ℝ → ℝ) (lm : Libm) (at2 : ℝ → ℝ → ℝ) (asn atn : ℝ → ℝ) (lg : LogLib) (env : Env) (t : Traj) (prevS : Dbl) :
    List Element → Out (List Element)
  | [] => .ok []
  | e :: rest => do
    let j ← elementJacobian fl lm at2 asn atn lg env t prevS e
    let l ← prepareLoop fl lm at2 asn atn lg env t e.arc rest
    pure ({ e with jac := some j } :: l)

/-- `prepareForFitting`, trajectory.cc:333-394 -/
def prepareForFitting (fl : ℝ → ℝ) (lm : Libm) (at2 : ℝ → ℝ → ℝ) (asn atn : ℝ → ℝ) (lg : LogLib) (env : Env) (sort : List Element → List Element)
    (t : Traj) : Out Traj := do
  let l ← stdSort sort Traj.compareElements t.elems
  let t : Traj := { t with elems := l }
  match l with
  | [] => .ub "begin()+1 of an empty vector"
  | e :: rest =>
    let first : Element := { e with jac := some (M5.unit M5.zero) }
    let l ← prepareLoop fl lm at2 asn atn lg env t 0 rest
    pure { t with elems := first :: l }

end Rnd

end Verif
