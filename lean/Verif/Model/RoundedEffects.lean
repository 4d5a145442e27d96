import Verif.Model.RoundedRefit

/-!
# The program `material_effects` in double precision

As in `Verif.Model.MaterialEffects`, with the arithmetic of Model/RoundedArith; the fit and the precisions are those of `Verif.Model.RoundedRefit`.
-/

open Classical

noncomputable section

namespace Verif

namespace Rnd

open Refit (TrackHit InTrack OutTrack Setup toInt)
open MatEff (HitMap)

namespace Eff

variable (A : Arith)

/-- the loop over the crossed surfaces, material_effects.cpp:263-319, with the hits put into the output track.  `id` is the address
of the local variable `ID`. -/
def addAll (env : Env) (id : ℕ) (m : HitMap) (t : Traj) (used : List ℕ) : List (Dbl × Surface) → Out (Traj × List ℕ)
  | [] => .ok (t, used)
  | (_, surf) :: rest =>
    match m surf.id with
    | some h => do
      let (du, dv) ← resolution A h
      let (t', r) := step A env t (.measurement (scaled A.fl h.pos) (precision A du dv) surf id true)
      let _ ← r
      addAll env id m t' (used ++ [h.addr]) rest
    | none =>
      ifc surf.innerMaterial.density < lit A.fl 1e-6 ∧ surf.outerMaterial.density < lit A.fl 1e-6 then addAll env id m t used rest
      else do
        let (t', r) := step A env t (.scatterer surf)
        let _ ← r
        addAll env id m t' used rest

/-- the trajectory that is fitted, and the hits of the output track, material_effects.cpp:224-322 -/
def trajectory (S : Setup) (id : ℕ) (m : HitMap) (tp : TP) : Out (Traj × List ℕ) := do
  let (t, r) := getIntersections A.fl A.lm A.at2 A.asn A.atn S.sortI (Traj.make tp) S.surfaces
  let crossed ← r
  let (t, used) ← addAll A S.env id m t [] crossed
  let t ← prepareForFitting A.fl A.lm A.at2 A.asn A.atn A.lg S.env S.sortE t
  pure (t, used)

/-- writing of a result, material_effects.cpp:361-376 -/
def write (used : List ℕ) (r : FitResults) : OutTrack :=
  let ts := createLCIO A.fl A.sl r.estParams
  let ts : TrackState := { ts with ref := V3.zero, location := 1 }
  ⟨used, toFloat A.sl r.chisquare, toInt r.ndf, used.length, [ts]⟩

/-- an event with a single track, material_effects.cpp:177-376, with the state of the fitter; `m` is the content of `hitMap`
before.  The trajectory lives at address `i` and is gone afterwards. -/
def refit (S : Setup) (i id : ℕ) (w : World) (m : HitMap) (trk : InTrack) : Out (World × OutTrack) := do
  let iTP ← readLCIO A.fl trk.state
  let (t, used) ← trajectory A S id (MatEff.fillMap m trk.hits) iTP
  let w := { w with trajs := fun j => if j = i then some (t, S.env.field) else w.trajs j }
  let (w, success) := fit A S.gbl w i
  let _ ← success
  let (w, address) := getResults A w 0
  let address ← address
  match w.heap address with
  | none => .ub "the result does not exist any more"
  | some r => pure ({ w with trajs := fun j => if j = i then none else w.trajs j }, write A used r)

/-- the event loop, material_effects.cpp:142-382 -/
def events (S : Setup) (i id : ℕ) (w : World) (m : HitMap) : List (List InTrack) → Out (List OutTrack)
  | [] => .ok []
  | [trk] :: rest => do
    let (w, o) ← refit A S i id w m trk
    let os ← events S i id w (fun _ => none) rest
    pure (o :: os)
  | _ :: rest => events S i id w m rest

end Eff

end Rnd

end Verif
