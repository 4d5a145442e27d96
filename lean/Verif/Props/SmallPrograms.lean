import Verif.Model.SmallPrograms
import Verif.Props.DebugTracks
import Verif.Props.Crossings
import Verif.Props.TrajectoryExample

/-!
# C129, C130: the programs lcio_read_example and intersection_calculator
-/

open Classical

noncomputable section

namespace Verif

open Dbl Traj SmallPrograms DebugTracks

/-! ## C129 -/

/-- the line printed for a hit names the surface with the number of the hit, the last one if there are several -/
def LineOf (surfaces : List Surface) (h : SimHit) (line : Surface × ℤ) : Prop :=
  IsLast surfaces h.cell0 line.1 ∧ line.2 = h.cell0

theorem printHits_ok (surfaces : List Surface) : ∀ (hits : List SimHit) (l : List (Surface × ℤ)),
    printHits (fillSurfaces (fun _ => none) surfaces) hits = .ok l ↔ List.Forall₂ (LineOf surfaces) hits l := by
  intro hits
  induction hits with
  | nil =>
    intro l
    rw [printHits, List.forall₂_nil_left_iff]
    exact ⟨fun h => (Out.ok.inj h).symm, fun h => by rw [h]⟩
  | cons a hits ih =>
    intro l
    rcases fillSurfaces_spec surfaces (fun _ => none) a.cell0 with ⟨surf, hl, e⟩ | ⟨hn, e⟩
    · simp only [printHits, e, Out.bind_eq_ok, Out.pure_eq, Out.ok.injEq]
      constructor
      · rintro ⟨m, h1, rfl⟩
        exact List.Forall₂.cons ⟨hl, rfl⟩ ((ih m).1 h1)
      · intro h
        cases h with
        | cons h1 h2 =>
          obtain ⟨h3, h4⟩ := h1
          refine ⟨_, (ih _).2 h2, ?_⟩
          rw [hl.unique h3, ← h4]
    · simp only [printHits, e]
      constructor
      · intro h; cases h
      · intro h
        cases h with
        | cons h1 h2 =>
          obtain ⟨⟨l1, l2, e1, e2, -⟩, -⟩ := h1
          exact absurd e2 (hn _ (by rw [e1]; simp))

theorem printEvents_ok (surfaces : List Surface) : ∀ (evts : List Event) (l : List (Surface × ℤ)),
    printEvents (fillSurfaces (fun _ => none) surfaces) evts = .ok l ↔
      ∃ hits : List (List SimHit), evts = hits.map some ∧ List.Forall₂ (LineOf surfaces) hits.flatten l := by
  intro evts
  induction evts with
  | nil =>
    intro l
    rw [printEvents]
    constructor
    · intro h
      exact ⟨[], rfl, by rw [← Out.ok.inj h]; exact List.Forall₂.nil⟩
    · rintro ⟨hits, h1, h2⟩
      obtain rfl : hits = [] := List.map_eq_nil_iff.mp h1.symm
      cases h2
      rfl
  | cons ev evts ih =>
    intro l
    cases ev with
    | none =>
      rw [printEvents]
      constructor
      · intro h; cases h
      · rintro ⟨hits, h1, -⟩
        cases hits with
        | nil => cases h1
        | cons a b => simp at h1
    | some hs =>
      simp only [printEvents, Out.bind_eq_ok, Out.pure_eq, Out.ok.injEq]
      constructor
      · rintro ⟨a, h1, b, h2, rfl⟩
        obtain ⟨hits, rfl, h3⟩ := (ih b).1 h2
        exact ⟨hs :: hits, rfl, by rw [List.flatten_cons]; exact List.rel_append ((printHits_ok _ _ _).1 h1) h3⟩
      · rintro ⟨hits, h1, h2⟩
        cases hits with
        | nil => cases h1
        | cons a hits =>
          simp only [List.map_cons, List.cons.injEq, Option.some.injEq] at h1
          obtain ⟨rfl, rfl⟩ := h1
          rw [List.flatten_cons] at h2
          have hlen := h2.length_eq
          rw [List.length_append] at hlen
          have t1 := List.forall₂_take_append l _ _ h2.flip
          have t2 := List.forall₂_drop_append l _ _ h2.flip
          refine ⟨l.take hs.length, (printHits_ok _ _ _).2 t1.flip, l.drop hs.length, (ih _).2 ⟨hits, rfl, t2.flip⟩, ?_⟩
          rw [List.take_append_drop]

/-- C129 (partial): with two arguments and files that can be read, the program ends normally if and only if every event has the
collection and every hit has a surface whose number is the first word of the number of its cell; it then prints these surfaces, in the
order of the hits.  Missing for C129: the other cases (`C129_unknown_false`, `C129_number_false`, `C129_argument_false`,
`C129_collection_false`). -/
theorem C129_lines_partial {dd : Dd4hep} {files : String → Option (List Event)} {xml file : String} {more : List String}
    {surfaces : List Surface} {evts : List Event} (h1 : dd.load xml = some surfaces) (h2 : files file = some evts)
    (n : ℕ) (l : List (Surface × ℤ)) :
    readExample dd files (xml :: file :: more) = .ok (n, l) ↔
      n = 0 ∧ ∃ hits : List (List SimHit), evts = hits.map some ∧ List.Forall₂ (LineOf surfaces) hits.flatten l := by
  simp only [readExample, h1, h2, Out.bind_eq_ok, Out.pure_eq, Out.ok.injEq, Prod.mk.injEq]
  constructor
  · rintro ⟨l', q1, rfl, rfl⟩
    exact ⟨rfl, (printEvents_ok _ _ _).1 q1⟩
  · rintro ⟨rfl, q⟩
    exact ⟨l, (printEvents_ok _ _ _).2 q, rfl, rfl⟩

/-- C129: without arguments the program prints nothing and returns 1; whenever it ends normally with arguments it returns 0. -/
theorem C129_status {dd : Dd4hep} {files : String → Option (List Event)} :
    readExample dd files [] = .ok (1, []) ∧ ∀ a more n l, readExample dd files (a :: more) = .ok (n, l) → n = 0 := by
  refine ⟨rfl, fun a more n l h => ?_⟩
  unfold readExample at h
  cases h1 : dd.load a with
  | none => simp [h1] at h
  | some surfaces =>
    rcases more with - | ⟨f, more⟩
    · simp [h1] at h
    · cases h2 : files f with
      | none => simp [h1, h2] at h
      | some evts =>
        simp only [h1, h2, Out.bind_eq_ok, Out.pure_eq, Out.ok.injEq, Prod.mk.injEq] at h
        obtain ⟨-, -, h, -⟩ := h
        exact h.symm

/-- C129 (partial): if every event has the collection and every hit a surface with its number, the program ends normally. -/
theorem C129_defined_partial {dd : Dd4hep} {files : String → Option (List Event)} {xml file : String} {more : List String}
    {surfaces : List Surface} {hits : List (List SimHit)} (h1 : dd.load xml = some surfaces) (h2 : files file = some (hits.map some))
    (h : ∀ x ∈ hits.flatten, ∃ surf ∈ surfaces, surf.id = x.cell0) :
    ∃ l, readExample dd files (xml :: file :: more) = .ok (0, l) := by
  have key : ∀ hs : List SimHit, (∀ x ∈ hs, ∃ surf ∈ surfaces, surf.id = x.cell0) → ∃ l, List.Forall₂ (LineOf surfaces) hs l := by
    intro hs
    induction hs with
    | nil => intro _; exact ⟨[], List.Forall₂.nil⟩
    | cons a hs ih =>
      intro hx
      obtain ⟨l, hl⟩ := ih fun x h => hx x (by simp [h])
      obtain ⟨s0, m1, m2⟩ := hx a (by simp)
      rcases fillSurfaces_spec surfaces (fun _ => none) a.cell0 with ⟨surf, hs, -⟩ | ⟨hn, -⟩
      · exact ⟨(surf, a.cell0) :: l, List.Forall₂.cons ⟨hs, rfl⟩ hl⟩
      · exact absurd m2 (hn s0 m1)
  obtain ⟨l, hl⟩ := key _ h
  exact ⟨l, (C129_lines_partial h1 h2 0 l).2 ⟨rfl, hits, rfl, hl⟩⟩

/-- C129 is false: a hit without surface gives undefined behaviour, whatever comes before and after. -/
theorem C129_unknown_false {dd : Dd4hep} {files : String → Option (List Event)} {xml file : String} {more : List String}
    {surfaces : List Surface} {before : List (List SimHit)} {first last : List SimHit} {h : SimHit} {rest : List Event}
    (h1 : dd.load xml = some surfaces) (h2 : files file = some (before.map some ++ some (first ++ h :: last) :: rest))
    (hb : ∀ x ∈ before.flatten ++ first, ∃ surf ∈ surfaces, surf.id = x.cell0) (hn : ∀ surf ∈ surfaces, surf.id ≠ h.cell0) :
    readExample dd files (xml :: file :: more) = .ub "null pointer: surface" := by
  have hn' : fillSurfaces (fun _ => none) surfaces h.cell0 = none := by
    rcases fillSurfaces_spec surfaces (fun _ => none) h.cell0 with ⟨surf, ⟨l1, l2, e1, e2, -⟩, -⟩ | ⟨-, e⟩
    · exact absurd e2 (hn surf (by rw [e1]; simp))
    · exact e
  have hf : ∀ x : SimHit, (∃ surf ∈ surfaces, surf.id = x.cell0) → ∃ s, fillSurfaces (fun _ => none) surfaces x.cell0 = some s := by
    rintro x ⟨s0, m1, m2⟩
    rcases fillSurfaces_spec surfaces (fun _ => none) x.cell0 with ⟨surf, -, e⟩ | ⟨e, -⟩
    · exact ⟨surf, e⟩
    · exact absurd m2 (e s0 m1)
  have k1 : ∀ l : List SimHit, (∀ x ∈ l, ∃ surf ∈ surfaces, surf.id = x.cell0) →
      printHits (fillSurfaces (fun _ => none) surfaces) (l ++ h :: last) = .ub "null pointer: surface" := by
    intro l
    induction l with
    | nil => intro _; simp only [List.nil_append, printHits, hn']
    | cons a l ih =>
      intro hl
      obtain ⟨s, hs⟩ := hf a (hl a (by simp))
      simp only [List.cons_append, printHits, hs, ih fun x hx => hl x (by simp [hx])]
      rfl
  have k2 : ∀ b : List (List SimHit), (∀ x ∈ b.flatten, ∃ surf ∈ surfaces, surf.id = x.cell0) →
      printEvents (fillSurfaces (fun _ => none) surfaces) (b.map some ++ some (first ++ h :: last) :: rest) =
        .ub "null pointer: surface" := by
    intro b
    induction b with
    | nil =>
      intro _
      simp only [List.map_nil, List.nil_append, printEvents, k1 first fun x hx => hb x (by simp [hx])]
      rfl
    | cons a b ih =>
      intro hx
      have e := ih fun x h => hx x (by rw [List.flatten_cons, List.mem_append]; exact Or.inr h)
      obtain ⟨l, hl⟩ : ∃ l, printHits (fillSurfaces (fun _ => none) surfaces) a = .ok l := by
        have ha : ∀ x ∈ a, ∃ surf ∈ surfaces, surf.id = x.cell0 := fun x h =>
          hx x (by rw [List.flatten_cons, List.mem_append]; exact Or.inl h)
        clear hx e
        induction a with
        | nil => exact ⟨[], rfl⟩
        | cons y a ih' =>
          obtain ⟨l, hl⟩ := ih' fun x h => ha x (by simp [h])
          obtain ⟨s, hs⟩ := hf y (ha y (by simp))
          exact ⟨(s, y.cell0) :: l, by simp only [printHits, hs, hl]; rfl⟩
      simp only [List.map_cons, List.cons_append, printEvents, hl, e]
      rfl
  simp only [readExample, h1, h2, k2 before fun x hx => hb x (by rw [List.mem_append]; exact Or.inl hx)]
  rfl

/-- C129 is false: with one argument the name of the second file is a null pointer. -/
theorem C129_argument_false {dd : Dd4hep} (files : String → Option (List Event)) {xml : String} {surfaces : List Surface}
    (h1 : dd.load xml = some surfaces) : readExample dd files [xml] = .ub "std::string from a null pointer" := by
  simp only [readExample, h1]

/-- C129 is false: the program ends with an exception at an event without the collection. -/
theorem C129_collection_false {dd : Dd4hep} {files : String → Option (List Event)} {xml file : String} {more : List String}
    {surfaces : List Surface} {rest : List Event} (h1 : dd.load xml = some surfaces) (h2 : files file = some (none :: rest)) :
    readExample dd files (xml :: file :: more) = .throw "DataNotAvailableException" := by
  simp only [readExample, h1, h2, printEvents]
  rfl

/-- the number of a cell: two words of 32 bits -/
def cellNumber (h : SimHit) : ℤ := (h.cell1 % 2 ^ 32) * 2 ^ 32 + h.cell0 % 2 ^ 32

/-- words of type `int` -/
def IsHit (h : SimHit) : Prop := -2 ^ 31 ≤ h.cell0 ∧ h.cell0 < 2 ^ 31 ∧ -2 ^ 31 ≤ h.cell1 ∧ h.cell1 < 2 ^ 31

open Example in
/-- C129 is false: a hit on the only surface, whose number has the highest of 32 bits set (a module with a sensor of number 128 or
more).  The number of the hit is negative as `int` and the surface is not found. -/
theorem C129_number_false : ∃ (surf : Surface) (h : SimHit), IsHit h ∧ cellNumber h = surf.id ∧ 0 ≤ surf.id ∧ surf.id < 2 ^ 32 ∧
    ∀ xml file more, readExample ⟨fun _ => some [surf], none⟩ (fun _ => some [some [h]]) (xml :: file :: more) =
      .ub "null pointer: surface" := by
  refine ⟨{ disk with id := 2 ^ 31 }, ⟨-2 ^ 31, 0⟩, by unfold IsHit; norm_num, by unfold cellNumber; norm_num, by norm_num, by norm_num, ?_⟩
  intro xml file more
  exact C129_unknown_false (before := []) (first := []) (last := []) (rest := []) (surfaces := [{ disk with id := 2 ^ 31 }]) rfl rfl
    (by simp) (by intro s hs; rw [List.mem_singleton] at hs; subst hs; norm_num)

open Example in
/-- a case for C129: two hits on the disk in two events -/
example (xml file : String) : readExample ⟨fun _ => some [disk], none⟩ (fun _ => some [some [⟨0, 3⟩], some [⟨0, 4⟩]]) [xml, file] =
    .ok (0, [(disk, 0), (disk, 0)]) := by
  have hl : IsLast [disk] 0 disk := ⟨[], [], rfl, rfl, by simp⟩
  rw [C129_lines_partial (surfaces := [disk]) rfl rfl]
  exact ⟨rfl, [[⟨0, 3⟩], [⟨0, 4⟩]], rfl, List.Forall₂.cons ⟨hl, rfl⟩ (List.Forall₂.cons ⟨hl, rfl⟩ List.Forall₂.nil)⟩

/-! ## C130 -/

theorem calcTrack_eq : calcTrack = ⟨M5.zero, hpR 0.23 0.01 1.57 0 0, V3.re 0 0 0⟩ := by
  simp only [calcTrack, TP.default, TP.setHp, hpR, V3.zero, V3.re, zero_eq, ofSci_eq]

/-- C130 is false: the output does not depend on the file. -/
theorem C130_file (dd : Dd4hep) (load : String → Option (List Surface)) (sort : List (Dbl × Surface) → List (Dbl × Surface))
    (f f' : String) (more more' : List String) :
    intersectionCalculator dd sort (f :: more) = intersectionCalculator { dd with load := load } sort (f' :: more') := rfl

/-- C130: without arguments the program prints nothing and returns 1; whenever it ends normally with arguments it returns 0. -/
theorem C130_status {dd : Dd4hep} {sort : List (Dbl × Surface) → List (Dbl × Surface)} :
    intersectionCalculator dd sort [] = .ok (1, []) ∧ ∀ a more n l, intersectionCalculator dd sort (a :: more) = .ok (n, l) → n = 0 := by
  refine ⟨rfl, fun a more n l h => ?_⟩
  unfold intersectionCalculator at h
  cases h1 : dd.unloaded with
  | none => simp [h1] at h
  | some surfaces =>
    simp only [h1, Out.bind_eq_ok, Out.pure_eq, Out.ok.injEq, Prod.mk.injEq] at h
    obtain ⟨-, -, h, -⟩ := h
    exact h.symm

/-- C130 (partial): the list printed consists of the surfaces of the geometry that are crossed by the track with curvature 0.23/cm,
dip 0.01 and azimuth 1.57 in the first half turn, each as often as it is in the geometry, in order of path length.
Missing for C130: that this is the geometry in the file (`C130_false`). -/
theorem C130_list_partial {dd : Dd4hep} {sort : List (Dbl × Surface) → List (Dbl × Surface)} (hsort : IsStdSort sortWithS sort)
    {f : String} {more : List String} {surfaces : List Surface} (hu : dd.unloaded = some surfaces) {n : ℕ} {l : List (Dbl × Surface)}
    (h : intersectionCalculator dd sort (f :: more) = .ok (n, l)) :
    n = 0 ∧ l.Pairwise (fun a b => a.1 ≤ b.1) ∧ l.Perm (surfaces.flatMap (crossing calcTrack)) ∧
      ∀ x, x ∈ l ↔ ∃ surf ∈ surfaces, ∃ s, CrossedAt calcTrack surf s ∧ x = (fin s, surf) := by
  simp only [intersectionCalculator, hu, Out.bind_eq_ok, Out.pure_eq, Out.ok.injEq, Prod.mk.injEq] at h
  obtain ⟨l', h1, rfl, rfl⟩ := h
  obtain ⟨-, q2, q3, q4⟩ := C51_crossings_partial hsort (t := Traj.make calcTrack) rfl (Prod.ext rfl h1)
  exact ⟨rfl, q3, q2, q4⟩

/-- C130: a disk is in the list if and only if it is between z = 0 and z = 0.01 pi / 0.23 (1.4 mm) and the track is inside its bounds
there. -/
theorem C130_disk {dd : Dd4hep} {sort : List (Dbl × Surface) → List (Dbl × Surface)} (hsort : IsStdSort sortWithS sort)
    {f : String} {more : List String} {surfaces : List Surface} (hu : dd.unloaded = some surfaces) {n : ℕ} {l : List (Dbl × Surface)}
    (h : intersectionCalculator dd sort (f :: more) = .ok (n, l)) {surf : Surface} (hs : surf ∈ surfaces)
    (hc : surf.type.isZCylinder = false) (hp : surf.type.isZPlane = false) (hz : surf.type.isZDisk = true) {ox oy oz : ℝ}
    (ho : surf.origin = V3.re ox oy oz) :
    (∃ s, (s, surf) ∈ l) ↔ 0 < oz ∧ oz < 0.01 * Real.pi / 0.23 ∧
      surf.insideBounds (pointAt (fin (oz / 0.01)) (hpR 0.23 0.01 1.57 0 0) (V3.re 0 0 0)) = true := by
  obtain ⟨-, -, -, hm⟩ := C130_list_partial hsort hu h
  have hd := C51_disk (surf := surf) (cov := M5.zero) (om := 0.23) (tl := 0.01) (ph := 1.57) (d := 0) (z := 0) (rx := 0) (ry := 0)
    (rz := 0) (by norm_num) (by norm_num) hc hp hz ox oy oz ho
  have hzz : ∀ s : ℝ, (pointAt (fin s) (hpR 0.23 0.01 1.57 0 0) (V3.re 0 0 0)).z = fin (0.01 * s) := by
    intro s
    rw [pointAt_re (by norm_num)]
    simp [V3.re, rZ]
    ring
  constructor
  · rintro ⟨s, hx⟩
    obtain ⟨surf', -, s', h1, h2⟩ := (hm _).1 hx
    simp only [Prod.mk.injEq] at h2
    obtain ⟨rfl, rfl⟩ := h2
    rw [calcTrack_eq] at h1
    obtain ⟨a1, a2, a3, a4⟩ := (hd s').1 h1
    rw [hzz, fin_inj] at a3
    rw [abs_of_pos (by positivity)] at a2
    have e : oz / 0.01 = s' := by rw [← a3]; field_simp
    refine ⟨by rw [← a3]; positivity, ?_, by rw [e]; exact a4⟩
    rw [← a3, lt_div_iff₀ (by norm_num)]
    nlinarith
  · rintro ⟨a1, a2, a3⟩
    refine ⟨fin (oz / 0.01), (hm _).2 ⟨surf, hs, oz / 0.01, ?_, rfl⟩⟩
    rw [calcTrack_eq]
    refine (hd _).2 ⟨by positivity, ?_, ?_, a3⟩
    · rw [abs_of_pos (by positivity)]
      rw [lt_div_iff₀ (by norm_num)] at a2
      rw [← mul_div_assoc, div_lt_iff₀ (by norm_num)]
      nlinarith
    · rw [hzz, fin_inj]; field_simp

open Example in
/-- C130 is false: the file describes a detector with a disk that the track crosses, and nothing is printed. -/
theorem C130_false {sort : List (Dbl × Surface) → List (Dbl × Surface)} (hsort : IsStdSort sortWithS sort) :
    ∃ (dd : Dd4hep) (f : String) (surf : Surface) (s : ℝ), dd.load f = some [surf] ∧ CrossedAt calcTrack surf s ∧
      intersectionCalculator dd sort [f] = .ok (0, []) ∧
      intersectionCalculator { dd with unloaded := dd.load f } sort [f] = .ok (0, [(fin s, surf)]) := by
  have hcr : CrossedAt calcTrack { disk with origin := V3.re 0 0 0.01 } 1 := by
    rw [calcTrack_eq]
    refine (C51_disk (by norm_num) (by norm_num) rfl rfl rfl 0 0 0.01 rfl 1).2 ⟨one_pos, ?_, ?_, rfl⟩
    · rw [abs_of_pos (by norm_num)]; linarith [Real.pi_gt_three]
    · rw [pointAt_re (by norm_num)]
      simp [V3.re, rZ]
  refine ⟨⟨fun _ => some [{ disk with origin := V3.re 0 0 0.01 }], some []⟩, "", _, 1, rfl, hcr, ?_, ?_⟩
  · obtain ⟨t', l, hl⟩ := C51_defined (sort := sort) (t := Traj.make calcTrack) (surfaces := []) (by simp [Traj.make]) (by simp)
    obtain ⟨-, q, -⟩ := C51_crossings_partial hsort rfl hl
    have : l = [] := by simpa using q
    subst this
    simp only [intersectionCalculator, hl]
    rfl
  · obtain ⟨t', l, hl⟩ := C51_defined (sort := sort) (t := Traj.make calcTrack) (surfaces := [{ disk with origin := V3.re 0 0 0.01 }])
      (by simp [Traj.make]) (by
        intro s hs
        rw [List.mem_singleton] at hs
        subst hs
        obtain ⟨hit, h, -⟩ := hcr
        exact ⟨hit, h⟩)
    obtain ⟨-, q, -⟩ := C51_crossings_partial hsort rfl hl
    rw [List.flatMap_cons, List.flatMap_nil, List.append_nil, show (Traj.make calcTrack).ref = calcTrack from rfl, crossing_pos hcr] at q
    have := List.perm_singleton.mp q
    subst this
    simp only [intersectionCalculator, hl]
    rfl

/-! ## C155 -/

theorem printIds_spec : ∀ l : List Surface, List.Forall₂ (fun s i => s.id = i) l (printIds l)
  | [] => .nil
  | s :: l => .cons rfl (printIds_spec l)

/-- C155: with the name of a file, geometry_test prints one line for each surface of the detector in this file, with its number, in the order of
the list of DD4hep, and ends with status 0; further arguments are ignored. -/
theorem C155_lines {dd : Dd4hep} {f : String} {args : List String} {r : ℕ × List ℤ} :
    geometryTest dd (f :: args) = .ok r ↔ ∃ l, dd.load f = some l ∧ r.1 = 0 ∧ List.Forall₂ (fun s i => s.id = i) l r.2 := by
  obtain ⟨n, ids⟩ := r
  cases hl : dd.load f with
  | none => simp [geometryTest, hl]
  | some l =>
    simp only [geometryTest, hl, Out.ok.injEq, Prod.mk.injEq, Option.some.injEq, exists_eq_left']
    constructor
    · rintro ⟨rfl, rfl⟩
      exact ⟨rfl, printIds_spec l⟩
    · rintro ⟨rfl, h2⟩
      refine ⟨rfl, ?_⟩
      have : ∀ (l : List Surface) (a b : List ℤ), List.Forall₂ (fun s i => s.id = i) l a → List.Forall₂ (fun s i => s.id = i) l b → a = b := by
        intro l a b ha
        induction ha generalizing b with
        | nil => rintro ⟨⟩; rfl
        | cons e _ ih =>
          rintro ⟨⟩
          rename_i e' t
          rw [← e, e', ih _ t]
      exact this l _ _ (printIds_spec l) h2

/-- C155: every number is printed as often as there are surfaces with it. -/
theorem C155_count {dd : Dd4hep} {f : String} {args : List String} {n : ℕ} {ids : List ℤ} (h : geometryTest dd (f :: args) = .ok (n, ids)) (i : ℤ) :
    ∃ l, dd.load f = some l ∧ ids.count i = (l.filter fun s => s.id = i).length := by
  obtain ⟨l, h1, -, h2⟩ := C155_lines.1 h
  refine ⟨l, h1, ?_⟩
  change List.Forall₂ _ l ids at h2
  clear h1 h
  induction h2 with
  | nil => rfl
  | @cons s j l ids e _ ih =>
    rw [List.count_cons, ih, List.filter_cons, ← e]
    by_cases k : s.id = i <;> simp [k]

/-- C155: without argument the status is 1 and nothing is printed; a file that cannot be read ends the program by an exception. -/
theorem C155_error (dd : Dd4hep) : geometryTest dd [] = .ok (1, []) ∧
    ∀ f args, dd.load f = none → geometryTest dd (f :: args) = .throw "fromCompact" :=
  ⟨rfl, fun f args h => by simp [geometryTest, h]⟩

/-- a detector with three surfaces, two of them with the same number -/
example (s : Surface) : geometryTest ⟨fun _ => some [{ s with id := 7 }, { s with id := 3 }, { s with id := 7 }], none⟩ ["ILDEx.xml"] = .ok (0, [7, 3, 7]) := rfl

end Verif
