import Verif.Model.Refit
import Verif.Model.RoundedStart
import Verif.Model.RoundedMoveCov
import Verif.Model.RoundedMaterial

/-!
# The start helix of lcio_tracks in double precision

examples/lcio_tracks/lcio_tracks.cpp:290-318 with the arithmetic of Model/RoundedArith.
-/

open Classical

noncomputable section

namespace Verif

namespace Rnd

open Refit (hitAt TrackHit)

/-- the position of a hit in units of DD4hep, lcio_tracks.cpp:304-306; `dd4hep::mm` is 0.1 -/
def scaled (fl : ℝ → ℝ) (p : V3) : V3 := ⟨mulD fl p.x (lit fl 0.1), mulD fl p.y (lit fl 0.1), mulD fl p.z (lit fl 0.1)⟩

/-- the "large errors" of the seed, lcio_tracks.cpp:313-318 -/
def seedCov (fl : ℝ → ℝ) (c : M5) : M5 :=
  let c := M5.unit c
  let c := c.set OMEGA OMEGA (lit fl 1e-2)
  let c := c.set TANL TANL (lit fl 1e2)
  let c := c.set PHI0 PHI0 (lit fl 1e2)
  let c := c.set D0 D0 (lit fl 1e5)
  c.set Z0 Z0 (lit fl 1e5)

/-- the start helix from three hits, lcio_tracks.cpp:290-318; `backwards` is false -/
def seed (fl : ℝ → ℝ) (lm : Libm) (at2 : ℝ → ℝ → ℝ) (mm : M5 → M5 → M5) (hits : List TrackHit) : Out TP := do
  let nHits := hits.length
  let h1 ← hitAt hits 0
  let h2 ← hitAt hits ((nHits + 1) / 2)
  let h3 ← hitAt hits (nHits - 1)
  let start := calculateStartHelix fl at2 (scaled fl h1.hit.pos) (scaled fl h2.hit.pos) (scaled fl h3.hit.pos) TP.default false
  let (start, _) ← moveHelixTo fl lm at2 mm start V3.zero false
  pure { start with cov := seedCov fl start.cov }

end Rnd

end Verif
