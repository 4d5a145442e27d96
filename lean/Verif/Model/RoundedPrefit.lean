import Verif.Model.Refit
import Verif.Model.RoundedRefit

/-!
# `createPreFit` of `lcio_tracks` in double precision

As in `Verif.Model.Refit`, with the arithmetic of Model/RoundedArith.
-/

open Classical

noncomputable section

namespace Verif

namespace Rnd

open Refit (TrkHit TrackHit Setup hitAt)
open Traj (AddOp)

variable (A : Arith)

/-- conversion of a number of type `double` that is not negative to `int`; other numbers do not occur -/
def truncate : Dbl → ℕ
  | .fin x => ⌊x⌋₊
  | _ => 0

/-- `step`, lcio_tracks.cpp:124: `int( 1.*nHits/25. )` -/
def prefitStep (nHits : ℕ) : ℕ := if nHits ≤ 25 then 1 else truncate (divD A.fl (mulD A.fl 1 (rnd A.fl 1024 (.fin nHits))) (lit A.fl 25))

/-- the values of `i` in lcio_tracks.cpp:129, `for(unsigned i=0 ; i < nHits ; i+= step )`, for fewer than 2^31 hits; a loop with `step` zero does
not end -/
def prefitFrom (step nHits i : ℕ) : List ℕ :=
  if h : i < nHits ∧ 0 < step then i :: prefitFrom step nHits (i + step) else []
termination_by nHits - i
decreasing_by omega

/-- the indices of the hits used -/
def prefitIndices (nHits : ℕ) : Out (List ℕ) :=
  if nHits = 0 ∨ 0 < prefitStep A nHits then .ok (prefitFrom (prefitStep A nHits) nHits 0) else .diverge

/-- the loop of `createPreFit`, lcio_tracks.cpp:129-156, for the hits with these indices -/
def prefitAdd (S : Setup) (hits : List TrackHit) (t : Traj) : List ℕ → Out Traj
  | [] => .ok t
  | i :: rest => do
    let h ← hitAt hits i
    match S.surfaces.reverse.find? (fun s => decide (s.id = h.hit.cellID0)) with
    | none => prefitAdd S hits t rest
    | some surf => do
      let (pos, prec) ← getHitInfo A h.hit (S.oneD surf)
      let (t', r) := step A S.env t (.measurement pos prec surf h.hit.addr false)
      let _ ← r
      prefitAdd S hits t' rest

/-- `createPreFit`, lcio_tracks.cpp:113-183, with the state `w` of the fitter it uses: the parameters returned.  The trajectory
lives at address `i` and is gone afterwards. -/
def createPreFit (S : Setup) (i : ℕ) (w : World) (tp : TP) (hits : List TrackHit) : Out (World × TP) := do
  let (tp, _) ← moveHelixTo A.fl A.lm A.at2 A.mm tp V3.zero false
  let idx ← prefitIndices A hits.length
  let t ← prefitAdd A S hits (Traj.make tp) idx
  let t ← prepareForFitting A.fl A.lm A.at2 A.asn A.atn A.lg S.env S.sortE t
  let w := { w with trajs := fun j => if j = i then some (t, S.env.field) else w.trajs j }
  let (w, success) := fit A S.gbl w i
  let success ← success
  if success then
    let (w, address) := getResults A w 0
    let address ← address
    match w.heap address with
    | none => .ub "the result does not exist any more"
    | some r => pure ({ w with trajs := fun j => if j = i then none else w.trajs j }, r.estParams)
  else pure ({ w with trajs := fun j => if j = i then none else w.trajs j }, tp)

end Rnd

end Verif
