import Verif.Lemmas.RoundedPropagation

/-!
# Propagation Jacobian in double precision, for inputs with errors

As in `Verif.Lemmas.RoundedPropagation`, with all errors larger by a factor of 1024, so that the directions, the path and the charge over momentum may be
results of earlier calculations.
-/

open Classical

noncomputable section

namespace Verif

open Dbl Spec

namespace Rnd

section
variable {fl : ℝ → ℝ} {lm : Libm} {a a' b b' c c' d d' n n' t t' f f' s s' o o' g g' m m' q q' r r' : Dbl}

/-- the sums in rows 1 and 2 -/
theorem Ap.turnW (h : NearestF 53 1074 fl) (hc : Ap 0 1 r r' 1 (263168 / 5)) (hs : Ap 0 1 s s' 1 (263168 / 5)) (hom : Ap 0 1 o o' 2 (6835328 / 125))
    (htm : Ap 0 1 m m' 5 (13401728 / 125)) (hga : Ap 0 1 g g' (1001 / 1000) (3373184 / 125)) (wa : Ap 0 1 a a' (101 / 100) 104448)
    (wb : Ap 0 1 b b' (101 / 100) 215040) (wn : Ap 0 1 c c' (101 / 100) 78848) (wd : Ap 0 1 d d' (101 / 100) 78848) (wm : Ap 0 1 n n' (101 / 100) 78848)
    (wt : Ap 0 1 t t' (101 / 100) 55296) (wf : Ap 0 1 f f' (101 / 100) 112640) :
    Ap 0 1 (jacTurn fl r s o m g a b c d n t f) (r' * a' + s' * b' + o' * c' * d' + n' * (-s' * t' + o' * f' - g' * m' * c')) 13 2560000 := by
  have gt := (Ap.mulr h hga htm (by norm_num) (by norm_num) (by norm_num) (by norm_num)).mono (B' := (1001 / 200)) (e' := (30925312 / 125)) (by norm_num) (by norm_num)
  have hns := Ap.neg hs
  have w1 := (Ap.mulr h hc wa (by norm_num) (by norm_num) (by norm_num) (by norm_num)).mono (B' := (101 / 100)) (e' := (19837056 / 125)) (by norm_num) (by norm_num)
  have w2 := (Ap.mulr h hs wb (by norm_num) (by norm_num) (by norm_num) (by norm_num)).mono (B' := (101 / 100)) (e' := (33661056 / 125)) (by norm_num) (by norm_num)
  have w3 := (Ap.add h w1 w2 (by norm_num) (by norm_num) (by norm_num)).mono (B' := (101 / 50)) (e' := (2150272 / 5)) (by norm_num) (by norm_num)
  have w4 := (Ap.mulr h hom wn (by norm_num) (by norm_num) (by norm_num) (by norm_num)).mono (B' := (101 / 50)) (e' := (5376256 / 25)) (by norm_num) (by norm_num)
  have w5 := (Ap.mulr h w4 wd (by norm_num) (by norm_num) (by norm_num) (by norm_num)).mono (B' := (2041 / 1000)) (e' := (47347456 / 125)) (by norm_num) (by norm_num)
  have w6 := (Ap.add h w3 w5 (by norm_num) (by norm_num) (by norm_num)).mono (B' := (4061 / 1000)) (e' := (101624192 / 125)) (by norm_num) (by norm_num)
  have w7 := (Ap.mulr h hns wt (by norm_num) (by norm_num) (by norm_num) (by norm_num)).mono (B' := (101 / 100)) (e' := (13693056 / 125)) (by norm_num) (by norm_num)
  have w8 := (Ap.mulr h hom wf (by norm_num) (by norm_num) (by norm_num) (by norm_num)).mono (B' := (101 / 50)) (e' := (7065856 / 25)) (by norm_num) (by norm_num)
  have w9 := (Ap.add h w7 w8 (by norm_num) (by norm_num) (by norm_num)).mono (B' := (303 / 100)) (e' := (49410304 / 125)) (by norm_num) (by norm_num)
  have w10 := (Ap.mulr h gt wn (by norm_num) (by norm_num) (by norm_num) (by norm_num)).mono (B' := (632 / 125)) (e' := (81241984 / 125)) (by norm_num) (by norm_num)
  have w11 := (Ap.sub h w9 w10 (by norm_num) (by norm_num) (by norm_num)).mono (B' := (4043 / 500)) (e' := (131687424 / 125)) (by norm_num) (by norm_num)
  have w12 := (Ap.mulr h wm w11 (by norm_num) (by norm_num) (by norm_num) (by norm_num)).mono (B' := (8167 / 1000)) (e' := (213755264 / 125)) (by norm_num) (by norm_num)
  have w := (Ap.add h w6 w12 (by norm_num) (by norm_num) (by norm_num)).mono (B' := (3057 / 250)) (e' := (316944768 / 125)) (by norm_num) (by norm_num)
  exact w.mono (by norm_num) (by norm_num)

/-- the sums in rows 3 and 4 -/
theorem Ap.shiftW (h : NearestF 53 1074 fl) (hs : Ap 0 1 s s' 1 (263168 / 5)) (hom : Ap 0 1 o o' 2 (6835328 / 125))
    (htm : Ap 0 1 m m' 5 (13401728 / 125)) (wa : Ap 0 1 a a' (101 / 100) 104448)
    (wb : Ap 0 1 b b' (101 / 100) 215040) (wn : Ap 0 1 c c' (101 / 100) 78848) (wd : Ap 0 1 d d' (101 / 100) 78848) :
    Ap 0 1 (jacShift fl s o m a b c d) (s' * a' + o' * b' + m' * c' * d') (41 / 5) 1576960 := by
  have z1 := (Ap.mulr h hs wa (by norm_num) (by norm_num) (by norm_num) (by norm_num)).mono (B' := (101 / 100)) (e' := (19837056 / 125)) (by norm_num) (by norm_num)
  have z2 := (Ap.mulr h hom wb (by norm_num) (by norm_num) (by norm_num) (by norm_num)).mono (B' := (101 / 50)) (e' := (12185856 / 25)) (by norm_num) (by norm_num)
  have z3 := (Ap.add h z1 z2 (by norm_num) (by norm_num) (by norm_num)).mono (B' := (303 / 100)) (e' := (81154304 / 125)) (by norm_num) (by norm_num)
  have z4 := (Ap.mulr h htm wn (by norm_num) (by norm_num) (by norm_num) (by norm_num)).mono (B' := (101 / 20)) (e' := (63475712 / 125)) (by norm_num) (by norm_num)
  have z5 := (Ap.mulr h z4 wd (by norm_num) (by norm_num) (by norm_num) (by norm_num)).mono (B' := (5101 / 1000)) (e' := (114599808 / 125)) (by norm_num) (by norm_num)
  have z := (Ap.add h z3 z5 (by norm_num) (by norm_num) (by norm_num)).mono (B' := (8131 / 1000)) (e' := (196795008 / 125)) (by norm_num) (by norm_num)
  exact z.mono (by norm_num) (by norm_num)

end

section
variable {fl : ℝ → ℝ} {lm : Libm} {n n' t t' r r' s s' o o' g g' m m' q q' qp qp' th th' pav pav' cs cs' ci ci' : Dbl} {Sq Sp P Ci y : ℝ}

/-- a component of the vector `dx` -/
theorem Ap.jacDxW (h : NearestF 53 1074 fl) (hq : Ap 209 Sq q q' 1 (56832 / 5)) (hy : q' = fin y) (hS : Sq ≤ |y|)
    (hs : Ap 0 1 s s' 1 (263168 / 5)) (hom : Ap 0 1 o o' 2 (6835328 / 125)) (gt : Ap 0 1 (mulD fl g m) (g' * m') (1001 / 200) (30925312 / 125))
    (hn : Ap 0 1 n n' 1 8) (ht : Ap 0 1 t t' (1001 / 1000) 850) (ha : Ap 0 1 r r' (1001 / 1000) (441216 / 25)) :
    Ap 209 (1 / Sq) (Rnd.jacDx fl g m s o q n t r) (-(g' * m' * n' + s' * t' + o' * r') / q') (1001 / 125) 549888 := by
  have Xa := (Ap.mulr h gt hn (by norm_num) (by norm_num) (by norm_num) (by norm_num)).mono (B' := (1001 / 200)) (e' := (36145664 / 125)) (by norm_num) (by norm_num)
  have Xb := (Ap.mulr h hs ht (by norm_num) (by norm_num) (by norm_num) (by norm_num)).mono (B' := (1001 / 1000)) (e' := (1344128 / 25)) (by norm_num) (by norm_num)
  have Xc := (Ap.add h Xa Xb (by norm_num) (by norm_num) (by norm_num)).mono (B' := (3003 / 500)) (e' := (1745408 / 5)) (by norm_num) (by norm_num)
  have Xd := (Ap.mulr h hom ha (by norm_num) (by norm_num) (by norm_num) (by norm_num)).mono (B' := (1001 / 500)) (e' := (11517568 / 125)) (by norm_num) (by norm_num)
  have Xe := (Ap.add h Xc Xd (by norm_num) (by norm_num) (by norm_num)).mono (B' := (1001 / 125)) (e' := (11235584 / 25)) (by norm_num) (by norm_num)
  have Xf := Ap.neg Xe
  exact (Ap.divr h Xf hq hy hS (by norm_num) (by norm_num) (by norm_num) (by norm_num)).mono (by norm_num) (by norm_num)

variable {hn hn' ts ts' te te' u1 u1' u2 u2' v1 v1' v2 v2' : V3}

/-- all entries below the first row -/
theorem jac_coreW (h : NearestF 53 1074 fl) (hhn : ApV 0 1 hn hn' 1 8) (hts : ApV 0 1 ts ts' (1001 / 1000) 850)
    (hte : ApV 0 1 te te' (1001 / 1000) 850) (hu1 : ApV 0 1 u1 u1' 1 4300) (hu2 : ApV 0 1 u2 u2' 1 4300)
    (hv1 : ApV 0 1 v1 v1' (1001 / 1000) 10350) (hv2 : ApV 0 1 v2 v2' (1001 / 1000) 10350) (hth : Ap 0 1 th th' 4 (247296 / 5))
    (hs : Ap 0 1 s s' 1 (263168 / 5)) (hc : Ap 0 1 r r' 1 (263168 / 5)) (hq : Ap 209 Sq q q' 1 (56832 / 5)) (hy : q' = fin y) (hS : Sq ≤ |y|)
    (hqp : Ap 109 Sp qp qp' 1 (51712 / 5)) (hp : Ap 100 P pav pav' 1 (5632 / 5)) (hcs : Ap 0 1 cs cs' (1001 / 1000) (20992 / 5))
    (hci : Ap 100 Ci ci ci' 1 (26112 / 5))
    {om om' tm tm' ga ga' anv anv' anu anu' : Dbl} {an1 an1' an2 an2' hu hu' hv hv' dx dx' : V3}
    (e1 : om = subD fl 1 r) (e1' : om' = 1 - r') (e2 : tm = subD fl th s) (e2' : tm' = th' - s') (e3 : ga = dotV fl hn te) (e3' : ga' = hn'.dot te')
    (e4 : anv = -dotV fl hn u2) (e4' : anv' = -hn'.dot u2') (e5 : anu = dotV fl hn v2) (e5' : anu' = hn'.dot v2')
    (e6 : an1 = crossV fl hn ts) (e6' : an1' = hn'.cross ts') (e7 : an2 = crossV fl hn te) (e7' : an2' = hn'.cross te')
    (e8 : hu = crossV fl hn u1) (e8' : hu' = hn'.cross u1') (e9 : hv = crossV fl hn v1) (e9' : hv' = hn'.cross v1')
    (e10 : dx = ⟨Rnd.jacDx fl ga tm s om q hn.x ts.x an1.x, Rnd.jacDx fl ga tm s om q hn.y ts.y an1.y, Rnd.jacDx fl ga tm s om q hn.z ts.z an1.z⟩)
    (e10' : dx' = ⟨-(ga' * tm' * hn'.x + s' * ts'.x + om' * an1'.x) / q', -(ga' * tm' * hn'.y + s' * ts'.y + om' * an1'.y) / q',
      -(ga' * tm' * hn'.z + s' * ts'.z + om' * an1'.z) / q'⟩) :
    (Ap 318 (Sp * (1 / Sq)) (mulD fl (mulD fl (-qp) anv) (dotV fl te dx)) (-qp' * anv' * te'.dot dx') 16 4096000 ∧
     Ap 0 1 (jacTurn fl r s om tm ga (dotV fl v1 v2) (dotV fl hv v2) (dotV fl hn v1) (dotV fl hn v2) anv (dotV fl te v1) (dotV fl an2 v1))
       (r' * v1'.dot v2' + s' * hv'.dot v2' + om' * hn'.dot v1' * hn'.dot v2' + anv' * (-s' * te'.dot v1' + om' * an2'.dot v1' - ga' * tm' * hn'.dot v1')) 16 4096000 ∧
     Ap 0 1 (mulD fl cs (jacTurn fl r s om tm ga (dotV fl u1 v2) (dotV fl hu v2) (dotV fl hn u1) (dotV fl hn v2) anv (dotV fl te u1) (dotV fl an2 u1)))
       (cs' * (r' * u1'.dot v2' + s' * hu'.dot v2' + om' * hn'.dot u1' * hn'.dot v2' + anv' * (-s' * te'.dot u1' + om' * an2'.dot u1' - ga' * tm' * hn'.dot u1')))
       16 4096000 ∧
     Ap 209 Sq (mulD fl (mulD fl (-q) anv) (dotV fl te u1)) (-q' * anv' * te'.dot u1') 16 4096000 ∧
     Ap 209 Sq (mulD fl (mulD fl (-q) anv) (dotV fl te v1)) (-q' * anv' * te'.dot v1') 16 4096000) ∧
    (Ap 418 (Sp * (1 / Sq) * Ci) (mulD fl (mulD fl (mulD fl (-qp) anu) (dotV fl te dx)) ci) (-qp' * anu' * te'.dot dx' * ci') 16 4096000 ∧
     Ap 100 Ci (mulD fl ci (jacTurn fl r s om tm ga (dotV fl v1 u2) (dotV fl hv u2) (dotV fl hn v1) (dotV fl hn u2) anu (dotV fl te v1) (dotV fl an2 v1)))
       (ci' * (r' * v1'.dot u2' + s' * hv'.dot u2' + om' * hn'.dot v1' * hn'.dot u2' + anu' * (-s' * te'.dot v1' + om' * an2'.dot v1' - ga' * tm' * hn'.dot v1')))
       16 4096000 ∧
     Ap 100 Ci (mulD fl (mulD fl ci cs)
         (jacTurn fl r s om tm ga (dotV fl u1 u2) (dotV fl hu u2) (dotV fl hn u1) (dotV fl hn u2) anu (dotV fl te u1) (dotV fl an2 u1)))
       (ci' * cs' * (r' * u1'.dot u2' + s' * hu'.dot u2' + om' * hn'.dot u1' * hn'.dot u2' +
         anu' * (-s' * te'.dot u1' + om' * an2'.dot u1' - ga' * tm' * hn'.dot u1'))) 16 4096000 ∧
     Ap 309 (Sq * Ci) (mulD fl (mulD fl (mulD fl (-q) anu) (dotV fl te u1)) ci) (-q' * anu' * te'.dot u1' * ci') 16 4096000 ∧
     Ap 309 (Sq * Ci) (mulD fl (mulD fl (mulD fl (-q) anu) (dotV fl te v1)) ci) (-q' * anu' * te'.dot v1' * ci') 16 4096000) ∧
    (Ap 309 (P * (1 / Sq)) (mulD fl pav (dotV fl u2 dx)) (pav' * u2'.dot dx') 16 4096000 ∧
     Ap 209 (1 / Sq) (divD fl (jacShift fl s om tm (dotV fl v1 u2) (dotV fl hv u2) (dotV fl hn u2) (dotV fl hn v1)) q)
       ((s' * v1'.dot u2' + om' * hv'.dot u2' + tm' * hn'.dot u2' * hn'.dot v1') / q') 16 4096000 ∧
     Ap 209 (1 / Sq) (divD fl (mulD fl (jacShift fl s om tm (dotV fl u1 u2) (dotV fl hu u2) (dotV fl hn u2) (dotV fl hn u1)) cs) q)
       ((s' * u1'.dot u2' + om' * hu'.dot u2' + tm' * hn'.dot u2' * hn'.dot u1') * cs' / q') 16 4096000 ∧
     Ap 0 1 (dotV fl u1 u2) (u1'.dot u2') 16 4096000 ∧ Ap 0 1 (dotV fl v1 u2) (v1'.dot u2') 16 4096000) ∧
    (Ap 309 (P * (1 / Sq)) (mulD fl pav (dotV fl v2 dx)) (pav' * v2'.dot dx') 16 4096000 ∧
     Ap 209 (1 / Sq) (divD fl (jacShift fl s om tm (dotV fl v1 v2) (dotV fl hv v2) (dotV fl hn v2) (dotV fl hn v1)) q)
       ((s' * v1'.dot v2' + om' * hv'.dot v2' + tm' * hn'.dot v2' * hn'.dot v1') / q') 16 4096000 ∧
     Ap 209 (1 / Sq) (divD fl (mulD fl (jacShift fl s om tm (dotV fl u1 v2) (dotV fl hu v2) (dotV fl hn v2) (dotV fl hn u1)) cs) q)
       ((s' * u1'.dot v2' + om' * hu'.dot v2' + tm' * hn'.dot v2' * hn'.dot u1') * cs' / q') 16 4096000 ∧
     Ap 0 1 (dotV fl u1 v2) (u1'.dot v2') 16 4096000 ∧ Ap 0 1 (dotV fl v1 v2) (v1'.dot v2') 16 4096000) := by
  have one : Ap 0 1 (1 : Dbl) 1 1 0 := Ap.unit (by simp)
  have hom := (Ap.sub h one hc (by norm_num) (by norm_num) (by norm_num)).mono (B' := 2) (e' := (6835328 / 125)) (by norm_num) (by norm_num)
  have htm := (Ap.sub h hth hs (by norm_num) (by norm_num) (by norm_num)).mono (B' := 5) (e' := (13401728 / 125)) (by norm_num) (by norm_num)
  have hga := (ApV.dot h hhn hte (by norm_num) (by norm_num) (by norm_num) (by norm_num) (by norm_num) (by norm_num)).mono (B' := (1001 / 1000)) (e' := (3373184 / 125)) (by norm_num) (by norm_num)
  have gt := (Ap.mulr h hga htm (by norm_num) (by norm_num) (by norm_num) (by norm_num)).mono (B' := (1001 / 200)) (e' := (30925312 / 125)) (by norm_num) (by norm_num)
  have du := (ApV.dot h hhn hu2 (by norm_num) (by norm_num) (by norm_num) (by norm_num) (by norm_num) (by norm_num)).mono (B' := 1) (e' := (5712256 / 125)) (by norm_num) (by norm_num)
  have hanu := (ApV.dot h hhn hv2 (by norm_num) (by norm_num) (by norm_num) (by norm_num) (by norm_num) (by norm_num)).mono (B' := (1001 / 1000)) (e' := (9517184 / 125)) (by norm_num) (by norm_num)
  have hanv := Ap.neg du
  have han1 := (ApV.cross h hhn hts (by norm_num) (by norm_num) (by norm_num) (by norm_num) (by norm_num)).mono (N' := (1001 / 1000)) (e' := (441216 / 25)) (by norm_num) (by norm_num) (by norm_num)
  have han2 := (ApV.cross h hhn hte (by norm_num) (by norm_num) (by norm_num) (by norm_num) (by norm_num)).mono (N' := (1001 / 1000)) (e' := (441216 / 25)) (by norm_num) (by norm_num) (by norm_num)
  have hhu1 := (ApV.cross h hhn hu1 (by norm_num) (by norm_num) (by norm_num) (by norm_num) (by norm_num)).mono (N' := 1) (e' := (3765504 / 125)) (by norm_num) (by norm_num) (by norm_num)
  have hhv1 := (ApV.cross h hhn hv1 (by norm_num) (by norm_num) (by norm_num) (by norm_num) (by norm_num)).mono (N' := (1001 / 1000)) (e' := (1260416 / 25)) (by norm_num) (by norm_num) (by norm_num)
  have uu := (ApV.dot h hu1 hu2 (by norm_num) (by norm_num) (by norm_num) (by norm_num) (by norm_num) (by norm_num)).mono (B' := 1) (e' := (5327872 / 125)) (by norm_num) (by norm_num)
  have uv := (ApV.dot h hu1 hv2 (by norm_num) (by norm_num) (by norm_num) (by norm_num) (by norm_num) (by norm_num)).mono (B' := (1001 / 1000)) (e' := (9132416 / 125)) (by norm_num) (by norm_num)
  have vu := (ApV.dot h hv1 hu2 (by norm_num) (by norm_num) (by norm_num) (by norm_num) (by norm_num) (by norm_num)).mono (B' := (1001 / 1000)) (e' := (9136256 / 125)) (by norm_num) (by norm_num)
  have vv := (ApV.dot h hv1 hv2 (by norm_num) (by norm_num) (by norm_num) (by norm_num) (by norm_num) (by norm_num)).mono (B' := (1003 / 1000)) (e' := (2589696 / 25)) (by norm_num) (by norm_num)
  have huu := (ApV.dot h hhu1 hu2 (by norm_num) (by norm_num) (by norm_num) (by norm_num) (by norm_num) (by norm_num)).mono (B' := 1) (e' := (14290944 / 125)) (by norm_num) (by norm_num)
  have huv := (ApV.dot h hhu1 hv2 (by norm_num) (by norm_num) (by norm_num) (by norm_num) (by norm_num) (by norm_num)).mono (B' := (1001 / 1000)) (e' := (18104448 / 125)) (by norm_num) (by norm_num)
  have hvu := (ApV.dot h hhv1 hu2 (by norm_num) (by norm_num) (by norm_num) (by norm_num) (by norm_num) (by norm_num)).mono (B' := (1001 / 1000)) (e' := (21911296 / 125)) (by norm_num) (by norm_num)
  have hvv := (ApV.dot h hhv1 hv2 (by norm_num) (by norm_num) (by norm_num) (by norm_num) (by norm_num) (by norm_num)).mono (B' := (1003 / 1000)) (e' := (25736192 / 125)) (by norm_num) (by norm_num)
  have nu1 := (ApV.dot h hhn hu1 (by norm_num) (by norm_num) (by norm_num) (by norm_num) (by norm_num) (by norm_num)).mono (B' := 1) (e' := (5712256 / 125)) (by norm_num) (by norm_num)
  have nv1 := (ApV.dot h hhn hv1 (by norm_num) (by norm_num) (by norm_num) (by norm_num) (by norm_num) (by norm_num)).mono (B' := (1001 / 1000)) (e' := (9517184 / 125)) (by norm_num) (by norm_num)
  have nu2 := (ApV.dot h hhn hu2 (by norm_num) (by norm_num) (by norm_num) (by norm_num) (by norm_num) (by norm_num)).mono (B' := 1) (e' := (5712256 / 125)) (by norm_num) (by norm_num)
  have nv2 := (ApV.dot h hhn hv2 (by norm_num) (by norm_num) (by norm_num) (by norm_num) (by norm_num) (by norm_num)).mono (B' := (1001 / 1000)) (e' := (9517184 / 125)) (by norm_num) (by norm_num)
  have tu := (ApV.dot h hte hu1 (by norm_num) (by norm_num) (by norm_num) (by norm_num) (by norm_num) (by norm_num)).mono (B' := (1001 / 1000)) (e' := (2986112 / 125)) (by norm_num) (by norm_num)
  have tv := (ApV.dot h hte hv1 (by norm_num) (by norm_num) (by norm_num) (by norm_num) (by norm_num) (by norm_num)).mono (B' := (1003 / 1000)) (e' := (6792192 / 125)) (by norm_num) (by norm_num)
  have au := (ApV.dot h han2 hu1 (by norm_num) (by norm_num) (by norm_num) (by norm_num) (by norm_num) (by norm_num)).mono (B' := (1001 / 1000)) (e' := (9611008 / 125)) (by norm_num) (by norm_num)
  have av := (ApV.dot h han2 hv1 (by norm_num) (by norm_num) (by norm_num) (by norm_num) (by norm_num) (by norm_num)).mono (B' := (1003 / 1000)) (e' := (13423616 / 125)) (by norm_num) (by norm_num)
  rw [← e1, ← e1'] at hom
  rw [← e2, ← e2'] at htm
  rw [← e3, ← e3'] at hga
  rw [← e2, ← e2', ← e3, ← e3'] at gt
  rw [← e4, ← e4'] at hanv
  rw [← e5, ← e5'] at hanu
  rw [← e6, ← e6'] at han1
  rw [← e7, ← e7'] at han2 au av
  rw [← e8, ← e8'] at hhu1 huu huv
  rw [← e9, ← e9'] at hhv1 hvu hvv
  have hdx : ApV 209 (1 / Sq) dx dx' 14 549888 := by
    rw [e10, e10']
    exact ApV.ofComps (Ap.jacDxW h hq hy hS hs hom gt hhn.x hts.x han1.x) (Ap.jacDxW h hq hy hS hs hom gt hhn.y hts.y han1.y)
      (Ap.jacDxW h hq hy hS hs hom gt hhn.z hts.z han1.z)
  have tdx := (ApV.dot h hte hdx (by norm_num) (by norm_num) (by norm_num) (by norm_num) (by norm_num) (by norm_num)).mono (B' := 141 / 10) (e' := 1740800) (by norm_num) (by norm_num)
  have udx := (ApV.dot h hu2 hdx (by norm_num) (by norm_num) (by norm_num) (by norm_num) (by norm_num) (by norm_num)).mono (B' := 141 / 10) (e' := 2048000) (by norm_num) (by norm_num)
  have vdx := (ApV.dot h hv2 hdx (by norm_num) (by norm_num) (by norm_num) (by norm_num) (by norm_num) (by norm_num)).mono (B' := 141 / 10) (e' := 2457600) (by norm_num) (by norm_num)
  have M : ∀ {a a' : Dbl} {B e : ℝ} (B' e' : ℝ), Ap 0 1 a a' B e → B ≤ B' → e ≤ e' → Ap 0 1 a a' B' e' := fun B' e' ha h1 h2 => ha.mono h1 h2
  have wuu := M (101 / 100) 104448 uu (by norm_num) (by norm_num)
  have wuv := M (101 / 100) 104448 uv (by norm_num) (by norm_num)
  have wvu := M (101 / 100) 104448 vu (by norm_num) (by norm_num)
  have wvv := M (101 / 100) 104448 vv (by norm_num) (by norm_num)
  have whuu := M (101 / 100) 215040 huu (by norm_num) (by norm_num)
  have whuv := M (101 / 100) 215040 huv (by norm_num) (by norm_num)
  have whvu := M (101 / 100) 215040 hvu (by norm_num) (by norm_num)
  have whvv := M (101 / 100) 215040 hvv (by norm_num) (by norm_num)
  have wnu1 := M (101 / 100) 78848 nu1 (by norm_num) (by norm_num)
  have wnv1 := M (101 / 100) 78848 nv1 (by norm_num) (by norm_num)
  have wnu2 := M (101 / 100) 78848 nu2 (by norm_num) (by norm_num)
  have wnv2 := M (101 / 100) 78848 nv2 (by norm_num) (by norm_num)
  have wanu := M (101 / 100) 78848 hanu (by norm_num) (by norm_num)
  have wanv := M (101 / 100) 78848 hanv (by norm_num) (by norm_num)
  have wtu := M (101 / 100) 55296 tu (by norm_num) (by norm_num)
  have wtv := M (101 / 100) 55296 tv (by norm_num) (by norm_num)
  have wau := M (101 / 100) 112640 au (by norm_num) (by norm_num)
  have wav := M (101 / 100) 112640 av (by norm_num) (by norm_num)
  clear M
  have qv := (Ap.mull h hqp.neg wanv (by norm_num) (by norm_num) (by norm_num) (by norm_num)).mono (B' := 102 / 100) (e' := 92160) (by norm_num) (by norm_num)
  have qu := (Ap.mull h hqp.neg wanu (by norm_num) (by norm_num) (by norm_num) (by norm_num)).mono (B' := 102 / 100) (e' := 92160) (by norm_num) (by norm_num)
  have rv := (Ap.mull h hq.neg wanv (by norm_num) (by norm_num) (by norm_num) (by norm_num)).mono (B' := 102 / 100) (e' := 93184) (by norm_num) (by norm_num)
  have ru := (Ap.mull h hq.neg wanu (by norm_num) (by norm_num) (by norm_num) (by norm_num)).mono (B' := 102 / 100) (e' := 93184) (by norm_num) (by norm_num)
  have up : Ap 318 (Sp * (1 / Sq)) (mulD fl (mulD fl (-qp) anu) (dotV fl te dx)) (-qp' * anu' * te'.dot dx') 15 3174400 :=
    (Ap.mul h qu tdx (by norm_num) (by norm_num) (by norm_num) (by norm_num)).mono (by norm_num) (by norm_num)
  have ru1 := (Ap.mull h ru wtu (by norm_num) (by norm_num) (by norm_num) (by norm_num)).mono (B' := 2) (e' := 204800) (by norm_num) (by norm_num)
  have ru2 := (Ap.mull h ru wtv (by norm_num) (by norm_num) (by norm_num) (by norm_num)).mono (B' := 2) (e' := 204800) (by norm_num) (by norm_num)
  have cc := (Ap.mull h hci hcs (by norm_num) (by norm_num) (by norm_num) (by norm_num)).mono (B' := 101 / 100) (e' := 12288) (by norm_num) (by norm_num)
  refine ⟨⟨?_, ?_, ?_, ?_, ?_⟩, ⟨?_, ?_, ?_, ?_, ?_⟩, ⟨?_, ?_, ?_, ?_, ?_⟩, ⟨?_, ?_, ?_, ?_, ?_⟩⟩
  · have k := Ap.mul h qv tdx (by norm_num) (by norm_num) (by norm_num) (by norm_num)
    exact (k.rescale (l := 318) (c := 1) (by rw [one_mul]) ((one_div_le_one_div_of_le (by positivity) (pow_le_pow_right₀ (by norm_num) (by norm_num))).trans k.lo)
      (k.hi.trans (pow_le_pow_right₀ (by norm_num) (by norm_num)))).mono (by norm_num) (by norm_num)
  · exact (Ap.turnW h hc hs hom htm hga wvv whvv wnv1 wnv2 wanv wtv wav).mono (by norm_num) (by norm_num)
  · exact (Ap.mulr h hcs (Ap.turnW h hc hs hom htm hga wuv whuv wnu1 wnv2 wanv wtu wau) (by norm_num) (by norm_num) (by norm_num) (by norm_num)).mono (by norm_num) (by norm_num)
  · exact (Ap.mull h rv wtu (by norm_num) (by norm_num) (by norm_num) (by norm_num)).mono (by norm_num) (by norm_num)
  · exact (Ap.mull h rv wtv (by norm_num) (by norm_num) (by norm_num) (by norm_num)).mono (by norm_num) (by norm_num)
  · have k := Ap.mul h up hci (by norm_num) (by norm_num) (by norm_num) (by norm_num)
    exact (k.rescale (l := 418) (c := 1) (by rw [one_mul]) ((one_div_le_one_div_of_le (by positivity) (pow_le_pow_right₀ (by norm_num) (by norm_num))).trans k.lo)
      (k.hi.trans (pow_le_pow_right₀ (by norm_num) (by norm_num)))).mono (by norm_num) (by norm_num)
  · exact (Ap.mull h hci (Ap.turnW h hc hs hom htm hga wvu whvu wnv1 wnu2 wanu wtv wav) (by norm_num) (by norm_num) (by norm_num) (by norm_num)).mono (by norm_num) (by norm_num)
  · exact (Ap.mull h cc (Ap.turnW h hc hs hom htm hga wuu whuu wnu1 wnu2 wanu wtu wau) (by norm_num) (by norm_num) (by norm_num) (by norm_num)).mono (by norm_num) (by norm_num)
  · exact (Ap.mul h ru1 hci (by norm_num) (by norm_num) (by norm_num) (by norm_num)).mono (by norm_num) (by norm_num)
  · exact (Ap.mul h ru2 hci (by norm_num) (by norm_num) (by norm_num) (by norm_num)).mono (by norm_num) (by norm_num)
  · exact (Ap.mul h hp udx (by norm_num) (by norm_num) (by norm_num) (by norm_num)).mono (by norm_num) (by norm_num)
  · exact (Ap.divr h (Ap.shiftW h hs hom htm wvu whvu wnu2 wnv1) hq hy hS (by norm_num) (by norm_num) (by norm_num) (by norm_num)).mono (by norm_num) (by norm_num)
  · exact (Ap.divr h (Ap.mull h (Ap.shiftW h hs hom htm wuu whuu wnu2 wnu1) hcs (by norm_num) (by norm_num) (by norm_num) (by norm_num)) hq hy hS (by norm_num) (by norm_num) (by norm_num) (by norm_num)).mono (by norm_num) (by norm_num)
  · exact uu.mono (by norm_num) (by norm_num)
  · exact vu.mono (by norm_num) (by norm_num)
  · exact (Ap.mul h hp vdx (by norm_num) (by norm_num) (by norm_num) (by norm_num)).mono (by norm_num) (by norm_num)
  · exact (Ap.divr h (Ap.shiftW h hs hom htm wvv whvv wnv2 wnv1) hq hy hS (by norm_num) (by norm_num) (by norm_num) (by norm_num)).mono (by norm_num) (by norm_num)
  · exact (Ap.divr h (Ap.mull h (Ap.shiftW h hs hom htm wuv whuv wnv2 wnu1) hcs (by norm_num) (by norm_num) (by norm_num) (by norm_num)) hq hy hS (by norm_num) (by norm_num) (by norm_num) (by norm_num)).mono (by norm_num) (by norm_num)
  · exact uv.mono (by norm_num) (by norm_num)
  · exact vv.mono (by norm_num) (by norm_num)

end

end Rnd

end Verif
