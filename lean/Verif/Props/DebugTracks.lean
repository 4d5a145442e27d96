import Verif.Model.DebugTracks
import Verif.Props.MaterialScan

/-!
# C117, C118: the example `lcio_debug_tracks`
-/

open Classical

noncomputable section

namespace Verif

open Dbl Spec DebugTracks
open Refit (TrkHit)

/-! ## C117: which hits are written -/

/-- `surf` is the last of the surfaces with the number `id` -/
def IsLast (surfaces : List Surface) (id : ℤ) (surf : Surface) : Prop :=
  ∃ l1 l2, surfaces = l1 ++ surf :: l2 ∧ surf.id = id ∧ ∀ s ∈ l2, s.id ≠ id

theorem fillSurfaces_spec : ∀ (surfaces : List Surface) (m : ℤ → Option Surface) (id : ℤ),
    (∃ surf, IsLast surfaces id surf ∧ fillSurfaces m surfaces id = some surf) ∨
    ((∀ s ∈ surfaces, s.id ≠ id) ∧ fillSurfaces m surfaces id = m id) := by
  intro surfaces
  induction surfaces with
  | nil => intro m id; exact Or.inr ⟨by simp, rfl⟩
  | cons a l ih =>
    intro m id
    rcases ih (fun id => if id = a.id then some a else m id) id with ⟨surf, ⟨l1, l2, e1, e2, e3⟩, e4⟩ | ⟨e1, e2⟩
    · exact Or.inl ⟨surf, ⟨a :: l1, l2, by rw [e1]; rfl, e2, e3⟩, e4⟩
    · by_cases h : id = a.id
      · refine Or.inl ⟨a, ⟨[], l, rfl, h.symm, e1⟩, ?_⟩
        rw [fillSurfaces, e2, if_pos h]
      · refine Or.inr ⟨?_, ?_⟩
        · intro s hs
          rcases List.mem_cons.mp hs with rfl | hs
          · exact fun hc => h hc.symm
          · exact e1 s hs
        · rw [fillSurfaces, e2, if_neg h]

theorem IsLast.unique {surfaces : List Surface} {id : ℤ} {a b : Surface} (ha : IsLast surfaces id a) (hb : IsLast surfaces id b) :
    a = b := by
  rcases fillSurfaces_spec surfaces (fun _ => none) id with ⟨c, ⟨l1, l2, e1, e2, e3⟩, -⟩ | ⟨h, -⟩
  · have key : ∀ x, IsLast surfaces id x → x = c := by
      rintro x ⟨k1, k2, f1, f2, f3⟩
      rw [e1] at f1
      rcases List.append_eq_append_iff.mp f1 with ⟨m, g1, g2⟩ | ⟨m, g1, g2⟩
      · rcases m with _ | ⟨y, m⟩
        · simp only [List.nil_append, List.cons.injEq] at g2
          exact g2.1.symm
        · simp only [List.cons_append, List.cons.injEq] at g2
          exact absurd f2 (e3 x (by rw [g2.2]; simp))
      · rcases m with _ | ⟨y, m⟩
        · simp only [List.nil_append, List.cons.injEq] at g2
          exact g2.1
        · simp only [List.cons_append, List.cons.injEq] at g2
          exact absurd e2 (f3 c (by rw [g2.2]; simp))
    rw [key a ha, key b hb]
  · obtain ⟨l1, l2, e1, e2, -⟩ := ha
    exact absurd e2 (h a (by rw [e1]; simp))

/-- what a hit of the input contributes to the output: nothing if no surface has its number or if the surface is not crossed
within its boundary, otherwise a hit at the crossing -/
def Contributes (surfaces : List Surface) (recode : TrkHit → ℤ) (tp : TP) (h : TrkHit) (p : Option V3) : Prop :=
  ((∀ s ∈ surfaces, s.id ≠ recode h) ∧ p = none) ∨
  ∃ surf hit, IsLast surfaces (recode h) surf ∧ intersectWithSurface surf tp.hp tp.rp 0 V3.zero 0 true = .ok hit ∧
    ((hit.found = false ∧ p = none) ∨ (hit.found = true ∧ p = some (inMm hit.xx)))

theorem newHits_ok (surfaces : List Surface) (recode : TrkHit → ℤ) (tp : TP) : ∀ (hits : List TrkHit) (l : List V3),
    newHits (fillSurfaces (fun _ => none) surfaces) recode tp hits = .ok l ↔
      ∃ ps, List.Forall₂ (Contributes surfaces recode tp) hits ps ∧ l = ps.filterMap id := by
  intro hits
  induction hits with
  | nil =>
    intro l
    rw [newHits]
    constructor
    · intro h
      injection h with h
      exact ⟨[], List.Forall₂.nil, by rw [← h]; rfl⟩
    · rintro ⟨ps, h, rfl⟩
      cases h
      rfl
  | cons a hits ih =>
    intro l
    rw [newHits]
    rcases fillSurfaces_spec surfaces (fun _ => none) (recode a) with ⟨surf, hl, e⟩ | ⟨hn, e⟩
    · simp only [e]
      constructor
      · intro h
        obtain ⟨hit, e1, h⟩ := Out.bind_eq_ok.mp h
        obtain ⟨more, e2, h⟩ := Out.bind_eq_ok.mp h
        rw [Out.pure_eq] at h
        injection h with h
        obtain ⟨ps, h1, rfl⟩ := (ih more).1 e2
        cases hf : hit.found with
        | false =>
          refine ⟨none :: ps, List.Forall₂.cons (Or.inr ⟨surf, hit, hl, e1, Or.inl ⟨hf, rfl⟩⟩) h1, ?_⟩
          rw [← h, hf]
          simp
        | true =>
          refine ⟨some (inMm hit.xx) :: ps, List.Forall₂.cons (Or.inr ⟨surf, hit, hl, e1, Or.inr ⟨hf, rfl⟩⟩) h1, ?_⟩
          rw [← h, hf]
          simp
      · rintro ⟨ps, h1, rfl⟩
        obtain ⟨p, ps', h2, h3, rfl⟩ := List.forall₂_cons_left_iff.mp h1
        rcases h2 with ⟨q, -⟩ | ⟨surf', hit, hl', e1, h2⟩
        · obtain ⟨l1, l2, f1, f2, -⟩ := hl
          exact absurd f2 (q surf (by rw [f1]; simp))
        · obtain rfl := hl.unique hl'
          refine Out.bind_eq_ok.mpr ⟨hit, e1, Out.bind_eq_ok.mpr ⟨_, (ih _).2 ⟨ps', h3, rfl⟩, ?_⟩⟩
          rw [Out.pure_eq]
          rcases h2 with ⟨hf, rfl⟩ | ⟨hf, rfl⟩ <;> rw [hf] <;> simp
    · simp only [e]
      rw [ih l]
      constructor
      · rintro ⟨ps, h1, rfl⟩
        exact ⟨none :: ps, List.Forall₂.cons (Or.inl ⟨hn, rfl⟩) h1, by simp⟩
      · rintro ⟨ps, h1, rfl⟩
        obtain ⟨p, ps', h2, h3, rfl⟩ := List.forall₂_cons_left_iff.mp h1
        rcases h2 with ⟨-, rfl⟩ | ⟨surf, hit, ⟨l1, l2, f1, f2, -⟩, -⟩
        · exact ⟨ps', h3, by simp⟩
        · exact absurd f2 (hn surf (by rw [f1]; simp))

/-- the track written for a track with a state at its last hit -/
def Written (surfaces : List Surface) (recode : TrkHit → ℤ) (trk : DbgIn) (o : DbgOut) : Prop :=
  ∃ ts ps, trk.atLastHit = some ts ∧ o.state = ts ∧
    List.Forall₂ (Contributes surfaces recode (parameters ts)) trk.hits ps ∧ o.hits = ps.filterMap id

theorem event_ok (surfaces : List Surface) (recode : TrkHit → ℤ) (trk : DbgIn) (o : DbgOut) :
    event (fillSurfaces (fun _ => none) surfaces) recode trk = .ok o ↔ Written surfaces recode trk o := by
  unfold event Written
  cases trk.atLastHit with
  | none =>
    constructor
    · intro h; cases h
    · rintro ⟨ts, ps, h, -⟩; cases h
  | some ts =>
    simp only
    constructor
    · intro h
      obtain ⟨l, e1, h⟩ := Out.bind_eq_ok.mp h
      rw [Out.pure_eq] at h
      injection h with h
      obtain ⟨ps, h1, h2⟩ := (newHits_ok _ _ _ _ _).1 e1
      subst h
      exact ⟨ts, ps, rfl, rfl, h1, h2⟩
    · rintro ⟨ts', ps, h, h1, h2, h3⟩
      obtain rfl := Option.some.inj h
      refine Out.bind_eq_ok.mpr ⟨o.hits, (newHits_ok _ _ _ _ _).2 ⟨ps, h2, h3⟩, ?_⟩
      rw [Out.pure_eq, ← h1]

/-! ## C118 -/

/-- the track of an event with a single one -/
def onlyTrack : List DbgIn → Option DbgIn
  | [trk] => some trk
  | _ => none

/-- C118: the events with a single track are written, in order and each with the hits of its own track only; no other event is
written. -/
theorem C118_file (surfaces : List Surface) (recode : TrkHit → ℤ) (evts : List (List DbgIn)) (outs : List DbgOut) :
    program surfaces recode evts = .ok outs ↔ List.Forall₂ (Written surfaces recode) (evts.filterMap onlyTrack) outs := by
  unfold program
  induction evts generalizing outs with
  | nil =>
    rw [events, List.filterMap_nil, List.forall₂_nil_left_iff]
    exact ⟨fun h => (Out.ok.inj h).symm, fun h => by rw [h]⟩
  | cons ev evts ih =>
    rcases ev with _ | ⟨trk, _ | ⟨b, l⟩⟩
    · rw [List.filterMap_cons]
      exact ih outs
    · rw [List.filterMap_cons, events]
      dsimp only [onlyTrack]
      rw [List.forall₂_cons_left_iff]
      constructor
      · intro h
        obtain ⟨o, e1, h⟩ := Out.bind_eq_ok.mp h
        obtain ⟨os, e2, h⟩ := Out.bind_eq_ok.mp h
        rw [Out.pure_eq] at h
        injection h with h
        exact ⟨o, os, (event_ok _ _ _ _).1 e1, (ih os).1 e2, h.symm⟩
      · rintro ⟨o, os, e1, e2, rfl⟩
        refine Out.bind_eq_ok.mpr ⟨o, (event_ok _ _ _ _).2 e1, Out.bind_eq_ok.mpr ⟨os, (ih os).2 e2, rfl⟩⟩
    · rw [List.filterMap_cons]
      exact ih outs

/-- C118: a single track without a state at its last hit is dereferenced nevertheless. -/
theorem C118_null_false (surfaces : List Surface) (recode : TrkHit → ℤ) (hits : List TrkHit) (rest : List (List DbgIn)) :
    ∃ w, program surfaces recode ([⟨none, hits⟩] :: rest) = .ub w := ⟨_, rfl⟩

/-! ## C117: where the hits are -/

/-- a track state with these numbers, in mm -/
structure StateIs (ts : TrackState) (om tl ph d z rx ry rz : ℝ) : Prop where
  omega : ts.omega = fin om
  tanLambda : ts.tanLambda = fin tl
  phi : ts.phi = fin ph
  d0 : ts.d0 = fin d
  z0 : ts.z0 = fin z
  ref : ts.ref = V3.re rx ry rz

/-- a position on the track with these parameters -/
def OnTrack (om tl ph d z rx ry rz : ℝ) (p : V3) : Prop :=
  ∀ x y zz : ℝ → ℝ, IsTrack om tl ph (rx - d * Real.sin ph) (ry + d * Real.cos ph) (rz + z) x y zz → ∃ s, p = V3.re (x s) (y s) (zz s)

variable {ts : TrackState} {om tl ph d z rx ry rz : ℝ} {surf : Surface} {hit : Hit}

theorem parameters_re (hs : StateIs ts om tl ph d z rx ry rz) :
    (parameters ts).hp = hpR (om / (1 / 10)) tl ph (d * (1 / 10)) (z * (1 / 10)) ∧
    (parameters ts).rp = V3.re (rx * (1 / 10)) (ry * (1 / 10)) (rz * (1 / 10)) := by
  obtain ⟨h1, h2, h3, h4, h5, h6⟩ := hs
  constructor
  · simp only [parameters, TP.setHp, TP.setRef, h1, h2, h3, h4, h5, unit_mm, fin_mul, fin_div _ (show (1 / 10 : ℝ) ≠ 0 by norm_num)]
    rfl
  · simp only [parameters, TP.setHp, TP.setRef, h6, V3.re, unit_mm, fin_mul]

theorem inMm_re (x y zz : ℝ) : inMm (V3.re x y zz) = V3.re (x / (1 / 10)) (y / (1 / 10)) (zz / (1 / 10)) := by
  simp only [inMm, V3.re, unit_mm, fin_div _ (show (1 / 10 : ℝ) ≠ 0 by norm_num)]

/-- a point of the track of the program, in mm -/
theorem onTrack_inMm (hs : StateIs ts om tl ph d z rx ry rz) (h : om ≠ 0) (s : ℝ) :
    OnTrack om tl ph d z rx ry rz (inMm (pointAt (fin s) (parameters ts).hp (parameters ts).rp)) := by
  intro x y zz ht
  obtain ⟨rfl, rfl, rfl⟩ := ht.unique (isTrack_r h)
  refine ⟨s / (1 / 10), ?_⟩
  have h' : om / (1 / 10) ≠ 0 := by positivity
  rw [(parameters_re hs).1, (parameters_re hs).2, pointAt_re h', inMm_re]
  have e : s * (om / (1 / 10)) = s / (1 / 10) * om := by ring
  simp only [rX, rY, rZ, e]
  congr 1
  · field_simp
  · field_simp
  · field_simp

/-- C117: a hit written for a z-disk is on the written track and on the disk. -/
theorem C117_disk (hs : StateIs ts om tl ph d z rx ry rz) (h : om ≠ 0) (ht : tl ≠ 0) (hc : surf.type.isZCylinder = false)
    (hp : surf.type.isZPlane = false) (hz : surf.type.isZDisk = true) (ox oy oz : ℝ) (ho : surf.origin = V3.re ox oy oz)
    (hi : intersectWithSurface surf (parameters ts).hp (parameters ts).rp 0 V3.zero 0 true = .ok hit) (hf : hit.found = true) :
    OnTrack om tl ph d z rx ry rz (inMm hit.xx) ∧ (inMm hit.xx).z = fin (oz / (1 / 10)) ∧ surf.insideBounds hit.xx = true := by
  have hb := C35_inside _ _ _ _ _ _ _ hi hf
  have key : hit.xx.z = fin oz ∧ ∃ s : ℝ, hit.xx = pointAt (fin s) (parameters ts).hp (parameters ts).rp := by
    rw [(parameters_re hs).1, (parameters_re hs).2] at hi ⊢
    obtain ⟨sv, hit', f1, f2, f3, f4, -, -⟩ := C30_disk (om := om / (1 / 10)) (ph := ph) (d := d * (1 / 10)) (z := z * (1 / 10))
      (rx := rx * (1 / 10)) (ry := ry * (1 / 10)) (rz := rz * (1 / 10)) (by positivity) ht surf ox oy oz ho 0 V3.zero 0 true
    unfold intersectWithSurface at hi
    rw [if_neg (by simp [hc]), if_neg (by simp [hp]), if_pos hz, f1] at hi
    injection hi with hi
    subst hi
    exact ⟨f4, sv, f3⟩
  obtain ⟨k1, s, k2⟩ := key
  refine ⟨?_, ?_, hb⟩
  · rw [k2]; exact onTrack_inMm hs h s
  · simp only [inMm, k1, unit_mm, fin_div _ (show (1 / 10 : ℝ) ≠ 0 by norm_num)]

/-- C117: a hit written for a z-cylinder is on the written track and on the cylinder, and no other crossing within half a turn is
closer to the reference point by more than 1e-3 mm. -/
theorem C117_cylinder (hs : StateIs ts om tl ph d z rx ry rz) (h : om ≠ 0) (hz : surf.type.isZCylinder = true) {a b c rho : ℝ}
    (C : CylCase surf (om / (1 / 10)) tl ph (d * (1 / 10)) (z * (1 / 10)) (rx * (1 / 10)) (ry * (1 / 10)) (rz * (1 / 10)) a b c rho)
    (hi : intersectWithSurface surf (parameters ts).hp (parameters ts).rp 0 V3.zero 0 true = .ok hit) (hf : hit.found = true) :
    OnTrack om tl ph d z rx ry rz (inMm hit.xx) ∧ surf.insideBounds hit.xx = true ∧
    ∃ px py pz sv : ℝ, inMm hit.xx = V3.re px py pz ∧ OnCircle (a / (1 / 10)) (b / (1 / 10)) (rho / (1 / 10)) px py ∧ hit.s = fin sv ∧
      ∀ s', |om / (1 / 10) * s'| < Real.pi → Meets (OnCircle a b rho) (om / (1 / 10)) tl ph (d * (1 / 10)) (z * (1 / 10))
        (rx * (1 / 10)) (ry * (1 / 10)) (rz * (1 / 10)) s' → |sv| ≤ |s'| + 1e-4 := by
  have hb := C35_inside _ _ _ _ _ _ _ hi hf
  have hi' := hi
  rw [(parameters_re hs).1, (parameters_re hs).2] at hi'
  unfold intersectWithSurface at hi'
  rw [if_pos hz] at hi'
  obtain ⟨sv, px, py, pz, f1, -, f3, f4, f5⟩ := C32_sound C _ _ _ _ _ hi' hf
  obtain ⟨sv', g1, -, -, g4⟩ := C34_cylinder C _ _ _ _ _ hi' hf
  rw [f1, fin_inj] at g1
  subst g1
  refine ⟨?_, hb, px / (1 / 10), py / (1 / 10), pz / (1 / 10), sv, by rw [f3, inMm_re], ?_, f1, ?_⟩
  · rw [f3, ← f4, ← (parameters_re hs).1, ← (parameters_re hs).2]; exact onTrack_inMm hs h sv
  · unfold OnCircle at f5 ⊢
    field_simp
    linarith
  · intro s' q1 q2
    rcases (g4 s' q1 q2).2.2 rfl with ⟨q, -⟩ | ⟨-, -, q⟩
    · have : (0 : ℝ) ≤ 1e-4 := by norm_num
      linarith
    · exact q

/-- C117: a hit written for a z-plane is on the written track and on the plane, unless the normal points towards the z axis or the
track passes within the tolerance of the intersection function (cf. C33). -/
theorem C117_plane_partial (hs : StateIs ts om tl ph d z rx ry rz) (h : om ≠ 0) (hc : surf.type.isZCylinder = false)
    (hz : surf.type.isZPlane = true) {n0 n1 ox oy oz cx cy r : ℝ}
    (C : PlaneCase surf (om / (1 / 10)) tl ph (d * (1 / 10)) (z * (1 / 10)) (rx * (1 / 10)) (ry * (1 / 10)) (rz * (1 / 10))
      n0 n1 ox oy oz cx cy r) (hside : 0 ≤ ox * n0 + oy * n1)
    (hw : ¬ (-1e-9 ≤ clDisc cx cy r n0 n1 (ox * n0 + oy * n1) ∧ clDisc cx cy r n0 n1 (ox * n0 + oy * n1) < 0))
    (hi : intersectWithSurface surf (parameters ts).hp (parameters ts).rp 0 V3.zero 0 true = .ok hit) (hf : hit.found = true) :
    OnTrack om tl ph d z rx ry rz (inMm hit.xx) ∧ surf.insideBounds hit.xx = true ∧
    ∃ px py pz : ℝ, inMm hit.xx = V3.re px py pz ∧ n0 * (px - ox / (1 / 10)) + n1 * (py - oy / (1 / 10)) = 0 := by
  have hb := C35_inside _ _ _ _ _ _ _ hi hf
  have hi' := hi
  rw [(parameters_re hs).1, (parameters_re hs).2] at hi'
  unfold intersectWithSurface at hi'
  rw [if_neg (by simp [hc]), if_pos hz] at hi'
  obtain ⟨sv, px, py, pz, f1, -, f3, f4, f5⟩ := C33_sound_partial C hside hw _ _ _ _ _ hi' hf
  refine ⟨?_, hb, px / (1 / 10), py / (1 / 10), pz / (1 / 10), by rw [f3, inMm_re], ?_⟩
  · rw [f3, ← f4, ← (parameters_re hs).1, ← (parameters_re hs).2]; exact onTrack_inMm hs h sv
  · linear_combination 10 * f5

namespace Example

/-- a state with curvature 1e-4/mm at the origin, along (1,0,1) -/
def stateDbg : TrackState := ⟨3, fin 0, fin 0, fin (1 / 10000), fin 0, fin 1, [], V3.re 0 0 0⟩

theorem stateDbg_is : StateIs stateDbg (1 / 10000) 1 0 0 0 0 0 0 := ⟨rfl, rfl, rfl, rfl, rfl, rfl⟩

/-- a track with this state and one hit at the given position -/
def trackDbg (p : V3) : DbgIn := ⟨some stateDbg, [⟨1, 0, p, none, []⟩]⟩

/-- the cylinder that this track crosses at the path lengths -5 cm and 15 cm: the hit is written at -5 cm -/
theorem dbg_hit : ∃ hit, intersectWithSurface (tubeMid (1 / 1000)) (parameters stateDbg).hp (parameters stateDbg).rp 0 V3.zero 0 true =
    .ok hit ∧ hit.found = true ∧ hit.xx = pointAt (fin (-5)) (parameters stateDbg).hp (parameters stateDbg).rp := by
  have hpi := Real.pi_gt_three
  have e1 : (parameters stateDbg).hp = hpR (1 / 1000) 1 0 0 0 := by
    rw [(parameters_re stateDbg_is).1]; norm_num
  have e2 : (parameters stateDbg).rp = V3.re 0 0 0 := by
    rw [(parameters_re stateDbg_is).2]; norm_num
  have hz : (tubeMid (1 / 1000)).type.isZCylinder = true := by simp [tubeMid, tubeAt, SurfaceType.isZCylinder]
  have C := tubeMid_case (om := 1 / 1000) (by norm_num) (by norm_num) 1
  have b15 : |(1 / 1000 : ℝ) * 15| < Real.pi := by rw [abs_of_pos (by positivity)]; linarith
  have b5 : |(1 / 1000 : ℝ) * (-5)| < Real.pi := by rw [abs_mul]; norm_num; linarith
  have m15 := (tubeMid_crossings (om := 1 / 1000) (by norm_num) (by norm_num) 1 15 b15).2 (Or.inr rfl)
  have m5 := (tubeMid_crossings (om := 1 / 1000) (by norm_num) (by norm_num) 1 (-5) b5).2 (Or.inl rfl)
  rw [e1, e2]
  unfold intersectWithSurface
  rw [if_pos hz]
  rcases cylinder_main C 0 V3.zero 0 true with ⟨-, f2⟩ | ⟨sv, f1, f2, f3, f4⟩
  · exact absurd ⟨fun hc => absurd hc (by norm_num), fun hc => absurd hc (by norm_num)⟩ (f2 _ b15 m15)
  · refine ⟨_, f3, rfl, ?_⟩
    rcases (tubeMid_crossings (by norm_num) (by norm_num) _ _ f1).1 f2 with rfl | rfl
    · rfl
    · exfalso
      rcases (f4 _ b5 m5).2.2 rfl with ⟨g, -⟩ | ⟨-, -, g⟩
      · rw [abs_of_pos (by norm_num), abs_of_neg (by norm_num)] at g; norm_num at g
      · rw [abs_of_pos (by norm_num), abs_of_neg (by norm_num)] at g; norm_num at g

end Example

/-- C117 is false as stated: the hit of the input is exactly where the track crosses the surface the second time, within its boundary;
the hit written is at the other crossing. -/
theorem C117_false : ∃ (surf : Surface) (trk : DbgIn) (h : TrkHit) (o : DbgOut) (p : V3), trk.hits = [h] ∧
    OnTrack (1 / 10000) 1 0 0 0 0 0 0 h.pos ∧
    (∃ x y zz a b rho : ℝ, h.pos = V3.re x y zz ∧ surf.cyl = some (fin rho, V3.re a b 0) ∧ OnCircle a b rho (x / 10) (y / 10) ∧
      surf.insideBounds (V3.re (x / 10) (y / 10) (zz / 10)) = true) ∧
    program [surf] (fun _ => 0) [[trk]] = .ok [o] ∧ o.state = Example.stateDbg ∧ trk.atLastHit = some Example.stateDbg ∧
    o.hits = [p] ∧ OnTrack (1 / 10000) 1 0 0 0 0 0 0 p ∧ p ≠ h.pos := by
  have hpi := Real.pi_gt_three
  have hne : (1 / 1000 : ℝ) ≠ 0 := by norm_num
  have b15 : |(1 / 1000 : ℝ) * 15| < Real.pi := by rw [abs_of_pos (by positivity)]; linarith
  have m15 := (Example.tubeMid_crossings (om := 1 / 1000) (by norm_num) (by norm_num) 1 15 b15).2 (Or.inr rfl)
  have e1 : (parameters Example.stateDbg).hp = hpR (1 / 1000) 1 0 0 0 := by
    rw [(parameters_re Example.stateDbg_is).1]; norm_num
  have e2 : (parameters Example.stateDbg).rp = V3.re 0 0 0 := by
    rw [(parameters_re Example.stateDbg_is).2]; norm_num
  obtain ⟨hit, f1, f2, f3⟩ := Example.dbg_hit
  have t15 := onTrack_inMm Example.stateDbg_is (by norm_num) 15
  have t5 := onTrack_inMm Example.stateDbg_is (by norm_num) (-5)
  refine ⟨Example.tubeMid (1 / 1000), Example.trackDbg (inMm (pointAt (fin 15) (parameters Example.stateDbg).hp
    (parameters Example.stateDbg).rp)), _, ⟨Example.stateDbg, [inMm hit.xx]⟩, inMm hit.xx, rfl, t15, ?_, ?_, rfl, rfl, rfl, ?_, ?_⟩
  · rw [meets_iff hne] at m15
    have e10 : ∀ t : ℝ, t / (1 / 10) / 10 = t := fun t => by field_simp
    refine ⟨rX (1 / 1000) 0 0 0 15 / (1 / 10), rY (1 / 1000) 0 0 0 15 / (1 / 10), rZ 1 0 0 15 / (1 / 10), _, _, _, ?_, rfl, ?_, rfl⟩
    · simp only
      rw [e1, e2, pointAt_re hne, inMm_re]
    · rw [e10, e10]; exact m15
  · rw [C118_file]
    refine List.Forall₂.cons ⟨Example.stateDbg, [some (inMm hit.xx)], rfl, rfl, ?_, rfl⟩ List.Forall₂.nil
    refine List.Forall₂.cons (Or.inr ⟨Example.tubeMid (1 / 1000), hit, ⟨[], [], rfl, rfl, by simp⟩, f1, Or.inr ⟨f2, rfl⟩⟩)
      List.Forall₂.nil
  · rw [f3]; exact t5
  · simp only
    rw [f3, e1, e2, pointAt_re hne, pointAt_re hne, inMm_re, inMm_re]
    intro hc
    simp only [V3.re, V3.mk.injEq, fin_inj, rZ] at hc
    norm_num at hc

end Verif
