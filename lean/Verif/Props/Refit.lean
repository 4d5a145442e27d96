import Verif.Model.Refit
import Verif.Props.TrackInvariants
import Verif.Props.Crossings
import Verif.Props.StartHelix
import Verif.Props.Lcio
import Verif.Props.GblPoints

/-!
# C98, C99: the refit of a track in `lcio_tracks`
-/

open Classical

noncomputable section

namespace Verif

open Dbl Traj

namespace Refit

/-! ## The list of crossed surfaces plays no role after it has been made -/

theorem step_inters (env : Env) (t : Traj) (L : List (Dbl × Surface)) (op : AddOp) :
    ({ t with inters := L } : Traj).step env op = ({ (t.step env op).1 with inters := L }, (t.step env op).2) := by
  have hw : ({ t with inters := L } : Traj).withStart = { t.withStart with inters := L } := by
    unfold withStart
    dsimp only
    split_ifs <;> rfl
  have ha : ∀ (t : Traj) (o : Out (Option Element)),
      ({ t with inters := L } : Traj).append o = ({ (t.append o).1 with inters := L }, (t.append o).2) := by
    intro t o
    rcases o with (_ | e) | w | w | _ <;> rfl
  cases op with
  | setMass m => rfl
  | scatterer s =>
    simp only [step, addScatterer, hw]
    cases t.withStart.elems.getLast? with
    | none => rfl
    | some back => exact ha _ _
  | measurement p pr s id sc =>
    simp only [step, addMeasurement, hw]
    cases t.withStart.elems.getLast? with
    | none => rfl
    | some back => exact ha _ _

theorem after_inters (env : Env) (t : Traj) (L : List (Dbl × Surface)) (h : List AddOp) :
    after env { t with inters := L } h = { after env t h with inters := L } := by
  induction h with
  | nil => rfl
  | cons op h ih => rw [after, ih, step_inters]; rfl

theorem prepareLoop_inters (env : Env) (t : Traj) (L : List (Dbl × Surface)) (s : Dbl) (l : List Element) :
    prepareLoop env { t with inters := L } s l = prepareLoop env t s l := by
  induction l generalizing s with
  | nil => rfl
  | cons e l ih => simp only [prepareLoop, ih]; rfl

theorem prepare_inters {env : Env} {sort : List Element → List Element} {t t' : Traj} {L : List (Dbl × Surface)}
    (h : ({ t with inters := L } : Traj).prepareForFitting env sort = .ok t') :
    ∃ t'', t.prepareForFitting env sort = .ok t'' ∧ t' = { t'' with inters := L } := by
  unfold prepareForFitting at h ⊢
  obtain ⟨l, h1, h⟩ := Out.bind_eq_ok.mp h
  dsimp only at h1
  rw [h1, Out.ok_bind]
  cases l with
  | nil => cases h
  | cons e rest =>
    dsimp only at h ⊢
    obtain ⟨l', h2, h⟩ := Out.bind_eq_ok.mp h
    have h3 : prepareLoop env { t with elems := e :: rest } 0 rest = .ok l' := by
      rw [← prepareLoop_inters env _ L]; exact h2
    rw [h3, Out.ok_bind]
    injection h with h
    exact ⟨_, rfl, h.symm⟩

/-! ## Which calls are made -/

/-- `h` is the last of the hits with this number -/
def LastHit (hits : List (Option TrkHit)) (id : ℤ) (h : TrkHit) : Prop :=
  ∃ a b, hits = a ++ some h :: b ∧ toInt h.cellID0 = id ∧ ∀ h', some h' ∈ b → toInt h'.cellID0 ≠ id

/-- no hit has this number -/
def NoHit (hits : List (Option TrkHit)) (id : ℤ) : Prop := ∀ h, some h ∈ hits → toInt h.cellID0 ≠ id

/-- the density of the material on both sides is below 1e-6 -/
def Empty (surf : Surface) : Prop := surf.innerMaterial.density < fin 0.000001 ∧ surf.outerMaterial.density < fin 0.000001

/-- the calls for a list of crossed surfaces -/
inductive Serves (hits : List (Option TrkHit)) (oneD : Surface → Bool) : List Surface → List AddOp → Prop
  | nil : Serves hits oneD [] []
  | hit {surf l ops h du dv} (hh : LastHit hits (toInt surf.id) h) (hr : resolution h = .ok (du, dv)) (hl : Serves hits oneD l ops) :
      Serves hits oneD (surf :: l) (.measurement ⟨h.pos.x * fin (1 / 10), h.pos.y * fin (1 / 10), h.pos.z * fin (1 / 10)⟩
        [1 / (du * du), if oneD surf then 0 else 1 / (dv * dv)] surf h.addr true :: ops)
  | scatterer {surf l ops} (hh : NoHit hits (toInt surf.id)) (he : ¬ Empty surf) (hl : Serves hits oneD l ops) :
      Serves hits oneD (surf :: l) (.scatterer surf :: ops)
  | skip {surf l ops} (hh : NoHit hits (toInt surf.id)) (he : Empty surf) (hl : Serves hits oneD l ops) :
      Serves hits oneD (surf :: l) ops

theorem fillMap_spec {m0 m : ℤ → Option TrkHit} {l : List (Option TrkHit)} (h : fillMap m0 l = .ok m) :
    none ∉ l ∧ ∀ id, (∃ x, LastHit l id x ∧ m id = some x) ∨ (NoHit l id ∧ m id = m0 id) := by
  induction l generalizing m0 with
  | nil =>
    injection h with h
    subst h
    exact ⟨by simp, fun id => Or.inr ⟨fun _ h => absurd h (by simp), rfl⟩⟩
  | cons o l ih =>
    cases o with
    | none => cases h
    | some x =>
      obtain ⟨h1, h2⟩ := ih h
      refine ⟨by simp [h1], fun id => ?_⟩
      rcases h2 id with ⟨y, ⟨a, b, e1, e2, e3⟩, hy⟩ | ⟨hn, hm⟩
      · exact Or.inl ⟨y, ⟨some x :: a, b, by rw [e1]; rfl, e2, e3⟩, hy⟩
      · by_cases hx : id = toInt x.cellID0
        · rw [if_pos hx] at hm
          exact Or.inl ⟨x, ⟨[], l, rfl, hx.symm, hn⟩, hm⟩
        · rw [if_neg hx] at hm
          refine Or.inr ⟨?_, hm⟩
          intro y hy
          rw [List.mem_cons] at hy
          rcases hy with hy | hy
          · injection hy with hy; rw [hy]; exact fun e => hx e.symm
          · exact hn y hy

theorem addAll_ok {env : Env} {oneD : Surface → Bool} {hits : List (Option TrkHit)} {m : ℤ → Option TrkHit}
    (hm : fillMap (fun _ => none) hits = .ok m) {L : List (Dbl × Surface)} {t t' : Traj} (h : addAll env oneD m t L = .ok t') :
    ∃ ops, Serves hits oneD (L.map Prod.snd) ops ∧ t' = after env t ops.reverse := by
  have hspec := (fillMap_spec hm).2
  have hafter : ∀ (t : Traj) (op : AddOp) (ops : List AddOp),
      after env t (op :: ops).reverse = after env (t.step env op).1 ops.reverse := by
    intro t op ops
    have : ∀ l : List AddOp, after env t (l ++ [op]) = after env (t.step env op).1 l := by
      intro l
      induction l with
      | nil => rfl
      | cons o l ih => simp only [List.cons_append, after, ih]
    rw [List.reverse_cons, this]
  induction L generalizing t with
  | nil =>
    injection h with h
    exact ⟨[], .nil, h.symm⟩
  | cons x L ih =>
    obtain ⟨s, surf⟩ := x
    rw [addAll] at h
    obtain ⟨o, h1, h⟩ := Out.bind_eq_ok.mp h
    have key : (∃ h du dv, LastHit hits (toInt surf.id) h ∧ resolution h = .ok (du, dv) ∧
          o = some (.measurement ⟨h.pos.x * fin (1 / 10), h.pos.y * fin (1 / 10), h.pos.z * fin (1 / 10)⟩
            [1 / (du * du), if oneD surf then 0 else 1 / (dv * dv)] surf h.addr true)) ∨
        (NoHit hits (toInt surf.id) ∧ ¬ Empty surf ∧ o = some (.scatterer surf)) ∨
        (NoHit hits (toInt surf.id) ∧ Empty surf ∧ o = none) := by
      unfold callFor at h1
      rcases hspec (toInt surf.id) with ⟨x, hx, e⟩ | ⟨hn, e⟩
      · left
        rw [e] at h1
        dsimp only at h1
        obtain ⟨⟨pos, prec⟩, h2, h3⟩ := Out.bind_eq_ok.mp h1
        obtain ⟨⟨du, dv⟩, h4, h5⟩ := Out.bind_eq_ok.mp h2
        injection h3 with h3
        injection h5 with h5
        injection h5 with h5 h6
        exact ⟨x, du, dv, hx, h4, by rw [← h3, ← h5, ← h6]; rfl⟩
      · right
        rw [e] at h1
        have e6 : (1e-6 : Dbl) = fin 0.000001 := by rw [ofSci_eq]
        dsimp only at h1
        rw [e6] at h1
        by_cases hc : surf.innerMaterial.density < fin 0.000001 ∧ surf.outerMaterial.density < fin 0.000001
        · rw [cif_pos hc] at h1
          injection h1 with h1
          exact Or.inr ⟨hn, hc, h1.symm⟩
        · rw [cif_neg hc] at h1
          injection h1 with h1
          exact Or.inl ⟨hn, hc, h1.symm⟩
    rcases key with ⟨x, du, dv, hx, hr, rfl⟩ | ⟨hn, he, rfl⟩ | ⟨hn, he, rfl⟩
    · dsimp only at h
      obtain ⟨b, -, h⟩ := Out.bind_eq_ok.mp h
      obtain ⟨ops, h5, h6⟩ := ih h
      exact ⟨_, .hit hx hr h5, by rw [h6, hafter]⟩
    · dsimp only at h
      obtain ⟨b, -, h⟩ := Out.bind_eq_ok.mp h
      obtain ⟨ops, h5, h6⟩ := ih h
      exact ⟨_, .scatterer hn he h5, by rw [h6, hafter]⟩
    · dsimp only at h
      obtain ⟨ops, h5, h6⟩ := ih h
      exact ⟨_, .skip hn he h5, h6⟩

theorem expand_append (a b : List TrackHit) : expand (a ++ b) = expand a ++ expand b := by
  induction a with
  | nil => rfl
  | cons x a ih => simp only [List.cons_append, expand, ih, List.append_assoc]

/-- the hits that are to be used: composite hits are replaced by their raw hits -/
inductive RawHits : List TrackHit → List (Option TrkHit) → Prop
  | nil : RawHits [] []
  | single {x : TrackHit} {rest : List TrackHit} {l : List (Option TrkHit)} : x.composite = false → RawHits rest l →
      RawHits (x :: rest) (some x.hit :: l)
  | composite {x : TrackHit} {rest : List TrackHit} {l : List (Option TrkHit)} : x.composite = true → RawHits rest l →
      RawHits (x :: rest) (x.raw ++ l)

theorem rawHits_expand {hits : List TrackHit} {l : List (Option TrkHit)} (h : RawHits hits l) : expand hits = l := by
  induction h with
  | nil => rfl
  | single hc _ ih => simp [expand, hc, ih]
  | composite hc _ ih => simp [expand, hc, ih]

theorem rawHits_exists (hits : List TrackHit) : RawHits hits (expand hits) := by
  induction hits with
  | nil => exact .nil
  | cons x rest ih =>
    rw [expand]
    cases hc : x.composite
    · exact .single hc ih
    · exact .composite hc ih

/-- no raw hit of a composite hit is a null pointer -/
def NoNull (hits : List TrackHit) : Prop := ∀ x ∈ hits, x.composite = true → none ∉ x.raw

theorem noNull_expand {hits : List TrackHit} (h : NoNull hits) : none ∉ expand hits := by
  induction hits with
  | nil => simp [expand]
  | cons x rest ih =>
    rw [expand, List.mem_append, not_or]
    refine ⟨?_, ih fun y hy => h y (by simp [hy])⟩
    split
    · exact h x (by simp) ‹_›
    · simp

theorem mem_expand {l : List TrackHit} {y : TrackHit} (hy : y ∈ l) (hc : y.composite = false) : some y.hit ∈ expand l := by
  obtain ⟨a, b, rfl⟩ := List.append_of_mem hy
  rw [expand_append]
  simp [expand, hc]

/-- the content at a number is overwritten by a later hit with this number -/
theorem fillMap_overwrite {m1 m2 : ℤ → Option TrkHit} {id : ℤ} (hm : ∀ i, i ≠ id → m1 i = m2 i) {b : List (Option TrkHit)} {h' : TrkHit}
    (hb : some h' ∈ b) (hid : toInt h'.cellID0 = id) : fillMap m1 b = fillMap m2 b := by
  induction b generalizing m1 m2 with
  | nil => cases hb
  | cons o b ih =>
    cases o with
    | none => rfl
    | some x =>
      simp only [fillMap]
      by_cases hx : toInt x.cellID0 = id
      · congr 1
        funext i
        by_cases hi : i = toInt x.cellID0
        · rw [if_pos hi, if_pos hi]
        · rw [if_neg hi, if_neg hi]; exact hm i (fun e => hi (e.trans hx.symm))
      · refine ih ?_ ?_
        · intro i hi
          by_cases hi' : i = toInt x.cellID0
          · rw [if_pos hi', if_pos hi']
          · rw [if_neg hi', if_neg hi']; exact hm i hi
        · rw [List.mem_cons] at hb
          rcases hb with hb | hb
          · injection hb with hb; rw [hb] at hid; exact absurd hid hx
          · exact hb

theorem fillMap_append (a b : List (Option TrkHit)) (m : ℤ → Option TrkHit) :
    fillMap m (a ++ b) = (do let m' ← fillMap m a; fillMap m' b) := by
  induction a generalizing m with
  | nil => rfl
  | cons o a ih =>
    cases o with
    | none => rfl
    | some x => simp only [List.cons_append, fillMap, ih]

/-- the address of the hit of a measurement -/
def hitOf : AddOp → Option ℕ
  | .measurement _ _ _ id _ => some id
  | _ => none

theorem lastHit_mem {hits : List (Option TrkHit)} {id : ℤ} {h : TrkHit} (hl : LastHit hits id h) :
    some h ∈ hits ∧ toInt h.cellID0 = id := by
  obtain ⟨a, b, e, e2, -⟩ := hl
  exact ⟨by rw [e]; simp, e2⟩

theorem serves_count {hits : List (Option TrkHit)} {oneD : Surface → Bool} {L : List Surface} {ops : List AddOp}
    (hs : Serves hits oneD L ops) (hd : hits.Pairwise fun x y => ∀ a b, x = some a → y = some b → toInt a.cellID0 ≠ toInt b.cellID0)
    (ha : ∀ x y, some x ∈ hits → some y ∈ hits → x.addr = y.addr → x = y) {h : TrkHit} (hh : some h ∈ hits) :
    (ops.filterMap hitOf).count h.addr = (L.map fun s => toInt s.id).count (toInt h.cellID0) := by
  have huniq : ∀ x, some x ∈ hits → toInt x.cellID0 = toInt h.cellID0 → x = h := by
    intro x hx e
    by_contra hne
    rw [List.pairwise_iff_getElem] at hd
    obtain ⟨i, hi, ei⟩ := List.getElem_of_mem hx
    obtain ⟨j, hj, ej⟩ := List.getElem_of_mem hh
    rcases Nat.lt_trichotomy i j with h1 | h1 | h1
    · exact hd i j hi hj h1 x h ei ej e
    · subst h1; rw [ei] at ej; injection ej with ej; exact hne ej
    · exact hd j i hj hi h1 h x ej ei e.symm
  induction hs with
  | nil => rfl
  | @hit surf l ops x du dv hx hr hl ih =>
    obtain ⟨m1, m2⟩ := lastHit_mem hx
    simp only [List.filterMap_cons, hitOf, List.map_cons, List.count_cons, ih]
    congr 1
    by_cases hc : x = h
    · subst hc; simp [m2]
    · have n1 : ¬ x.addr = h.addr := fun e => hc (ha _ _ m1 hh e)
      have n2 : ¬ toInt surf.id = toInt h.cellID0 := fun e => hc (huniq x m1 (m2.trans e))
      simp [n1, n2]
  | @scatterer surf l ops hn he hl ih =>
    have n2 : ¬ toInt surf.id = toInt h.cellID0 := fun e => hn h hh e.symm
    simp only [List.filterMap_cons, hitOf, List.map_cons, List.count_cons, ih]
    simp [n2]
  | @skip surf l ops hn he hl ih =>
    have n2 : ¬ toInt surf.id = toInt h.cellID0 := fun e => hn h hh e.symm
    simp only [List.map_cons, List.count_cons, ih]
    simp [n2]

theorem trajectory_ok {S : Setup} {tp : TP} {hits : List TrackHit} {t : Traj} (h : trajectory S tp hits = .ok t) :
    ∃ m L t1, fillMap (fun _ => none) (expand hits) = .ok m ∧ (Traj.make tp).getIntersections S.sortI S.surfaces = (t1, .ok L) ∧
      ∃ t2, addAll S.env S.oneD m t1 L = .ok t2 ∧ t2.prepareForFitting S.env S.sortE = .ok t := by
  unfold trajectory at h
  obtain ⟨m, h1, h⟩ := Out.bind_eq_ok.mp h
  rcases hg : (Traj.make tp).getIntersections S.sortI S.surfaces with ⟨t1, r⟩
  rw [hg] at h
  dsimp only at h
  obtain ⟨L, h2, h⟩ := Out.bind_eq_ok.mp h
  obtain ⟨t2, h3, h⟩ := Out.bind_eq_ok.mp h
  exact ⟨m, L, t1, h1, by rw [h2], t2, h3, h⟩

end Refit

open Refit

/-! ## C99 -/

/-- C99: what is fitted.  The crossed surfaces are those crossed by the start helix in the forward half turn, in order; for each of
them, in this order, the last hit with its number is added as measurement, or a scatterer if there is no such hit and there
is material. -/
theorem C99_calls {S : Setup} (hI : IsStdSort sortWithS S.sortI) {tp : TP} {hits : List TrackHit} {t : Traj}
    (h : trajectory S tp hits = .ok t) {l : List (Option TrkHit)} (hr : RawHits hits l) :
    ∃ (L : List (Dbl × Surface)) (ops : List AddOp) (t' : Traj),
      (∀ x, x ∈ L ↔ ∃ surf ∈ S.surfaces, ∃ s, CrossedAt tp surf s ∧ x = (fin s, surf)) ∧ L.Pairwise (fun a b => a.1 ≤ b.1) ∧
      Serves l S.oneD (L.map Prod.snd) ops ∧
      (after S.env (make tp) ops.reverse).prepareForFitting S.env S.sortE = .ok t' ∧ t = { t' with inters := L } := by
  obtain ⟨m, L, t1, h1, h2, t2, h3, h4⟩ := trajectory_ok h
  rw [rawHits_expand hr] at h1
  obtain ⟨e1, -, e2, e3⟩ := C51_crossings_partial hI rfl h2
  obtain ⟨ops, e4, e5⟩ := addAll_ok h1 h3
  rw [e5, e1, after_inters] at h4
  obtain ⟨t', e6, e7⟩ := prepare_inters h4
  exact ⟨L, ops, t', e3, e2, e4, e6, e7⟩

/-- C99 (partial): if no two hits have the same number, a hit becomes a measurement as often as there are crossed surfaces
with its number.  Missing: hits with the same number (`C99_two_hits_false`); surfaces with numbers that agree in the lower 32
bits (`C99_number_false`); hits on surfaces that the start helix does not cross are not used. -/
theorem C99_count_partial {S : Setup} (hI : IsStdSort sortWithS S.sortI) {tp : TP} {hits : List TrackHit} {t : Traj}
    (h : trajectory S tp hits = .ok t) {l : List (Option TrkHit)} (hr : RawHits hits l)
    (hd : l.Pairwise fun x y => ∀ a b, x = some a → y = some b → toInt a.cellID0 ≠ toInt b.cellID0)
    (ha : ∀ x y, some x ∈ l → some y ∈ l → x.addr = y.addr → x = y) :
    ∃ (L : List (Dbl × Surface)) (ops : List AddOp) (t' : Traj),
      (∀ x, x ∈ L ↔ ∃ surf ∈ S.surfaces, ∃ s, CrossedAt tp surf s ∧ x = (fin s, surf)) ∧
      (after S.env (make tp) ops.reverse).prepareForFitting S.env S.sortE = .ok t' ∧ t = { t' with inters := L } ∧
      ∀ x, some x ∈ l →
        (ops.filterMap hitOf).count x.addr = (L.map fun y => toInt y.2.id).count (toInt x.cellID0) := by
  obtain ⟨L, ops, t', h1, -, h2, h3, h4⟩ := C99_calls hI h hr
  refine ⟨L, ops, t', h1, h3, h4, fun x hx => ?_⟩
  rw [serves_count h2 hd ha hx, List.map_map]
  rfl

/-- C99 is false: of two hits with the same number the first one is ignored, it has no influence on what is fitted. -/
theorem C99_two_hits_false (S : Setup) (tp : TP) (l1 l2 : List TrackHit) (x y : TrackHit) (hx : x.composite = false)
    (hy : y.composite = false) (hm : y ∈ l2) (hid : toInt x.hit.cellID0 = toInt y.hit.cellID0) :
    trajectory S tp (l1 ++ x :: l2) = trajectory S tp (l1 ++ l2) := by
  have key : fillMap (fun _ => none) (expand (l1 ++ x :: l2)) = fillMap (fun _ => none) (expand (l1 ++ l2)) := by
    rw [expand_append, expand_append, fillMap_append, fillMap_append]
    congr 1
    funext m'
    rw [show expand (x :: l2) = some x.hit :: expand l2 by simp [expand, hx]]
    rw [fillMap]
    refine fillMap_overwrite (id := toInt x.hit.cellID0) ?_ (mem_expand hm hy) hid.symm
    intro i hi
    rw [if_neg hi]
  unfold trajectory
  rw [key]

/-- C99 is false: a hit is used for every crossed surface whose number agrees with its own in the lower 32 bits. -/
theorem C99_number_false {S : Setup} {hits : List (Option TrkHit)} {s1 s2 : Surface} (h12 : s2.id = s1.id + 2 ^ 32) {h : TrkHit}
    (hh : LastHit hits (toInt s1.id) h) {ops : List AddOp} (hs : Serves hits S.oneD [s1, s2] ops) :
    ops.filterMap hitOf = [h.addr, h.addr] := by
  have e12 : toInt s2.id = toInt s1.id := by
    unfold toInt
    rw [h12]
    omega
  have uniq : ∀ id x, LastHit hits id x → LastHit hits id h → x = h := by
    rintro id x ⟨a, b, e1, e2, e3⟩ ⟨a', b', e1', e2', e3'⟩
    rw [e1] at e1'
    rcases List.append_eq_append_iff.mp e1' with ⟨c, hc1, hc2⟩ | ⟨c, hc1, hc2⟩
    · cases c with
      | nil => simp only [List.nil_append, List.cons.injEq, Option.some.injEq] at hc2; exact hc2.1
      | cons o c =>
        simp only [List.cons_append, List.cons.injEq] at hc2
        exact absurd e2' (e3 h (by rw [hc2.2]; simp))
    · cases c with
      | nil => simp only [List.nil_append, List.cons.injEq, Option.some.injEq] at hc2; exact hc2.1.symm
      | cons o c =>
        simp only [List.cons_append, List.cons.injEq] at hc2
        exact absurd e2 (e3' x (by rw [hc2.2]; simp))
  obtain ⟨hm, hmid⟩ := lastHit_mem hh
  cases hs with
  | hit hx hr hl =>
    rw [uniq _ _ hx hh]
    cases hl with
    | hit hy hr' hl =>
      rw [e12] at hy
      rw [uniq _ _ hy hh]
      cases hl
      rfl
    | scatterer hn => rw [e12] at hn; exact absurd hmid (hn h hm)
    | skip hn => rw [e12] at hn; exact absurd hmid (hn h hm)
  | scatterer hn => exact absurd hmid (hn h hm)
  | skip hn => exact absurd hmid (hn h hm)

/-! ## C98 -/

namespace Refit

theorem scaled_re (x y z : ℝ) : scaled (V3.re x y z) = V3.re (x * (1 / 10)) (y * (1 / 10)) (z * (1 / 10)) := by
  simp only [scaled, V3.re, unit_mm_eq, fin_mul]

theorem hitAt_ok {hits : List TrackHit} {i : ℕ} {x : TrackHit} (h : hits[i]? = some x) : hitAt hits i = .ok x := by
  unfold hitAt; rw [h]

/-- the start helix before the move to the origin -/
def rawSeed (p1 p2 p3 : V3) : TP := calculateStartHelix (scaled p1) (scaled p2) (scaled p3) TP.default false

theorem seed_eq {hits : List TrackHit} {h1 h2 h3 : TrackHit} (e1 : hits[0]? = some h1) (e2 : hits[(hits.length + 1) / 2]? = some h2)
    (e3 : hits[hits.length - 1]? = some h3) :
    seed hits = (do
      let (start, _) ← moveHelixTo (rawSeed h1.hit.pos h2.hit.pos h3.hit.pos) V3.zero false
      pure { start with cov := seedCov start.cov }) := by
  unfold seed
  simp only [hitAt_ok e1, hitAt_ok e2, hitAt_ok e3, Out.ok_bind]
  rfl

theorem rawSeed_collinear {x1 y1 z1 x2 y2 z2 x3 y3 z3 : ℝ} (hc : (x2 - x1) * (y3 - y1) - (y2 - y1) * (x3 - x1) = 0) :
    (rawSeed (V3.re x1 y1 z1) (V3.re x2 y2 z2) (V3.re x3 y3 z3)).hp OMEGA = nan ∨
    (rawSeed (V3.re x1 y1 z1) (V3.re x2 y2 z2) (V3.re x3 y3 z3)).hp OMEGA = fin 0 := by
  unfold rawSeed
  rw [scaled_re, scaled_re, scaled_re]
  rcases startHelix_collinear (x1 * (1 / 10)) (y1 * (1 / 10)) (z1 * (1 / 10)) (x2 * (1 / 10)) (y2 * (1 / 10)) (z2 * (1 / 10))
    (x3 * (1 / 10)) (y3 * (1 / 10)) (z3 * (1 / 10)) TP.default false (by linear_combination (1 / 100) * hc) with h | h
  · exact Or.inl h.1
  · exact Or.inr h.1

/-- a track with undefined or zero curvature crosses nothing -/
theorem no_crossing {tp : TP} (h : tp.hp OMEGA = nan ∨ tp.hp OMEGA = fin 0) (surf : Surface) (s : ℝ) : ¬ CrossedAt tp surf s := by
  rintro ⟨hit, -, -, -, h0, r, hr, hs⟩
  rcases h with h | h
  · simp [calculateRadius, calculateCurvature, h] at hr
  · simp only [calculateRadius, calculateCurvature, h] at hr
    rw [cif_neg (by simp), zero_eq, fin_inj] at hr
    rw [← hr, abs_zero, mul_zero] at hs
    linarith

/-- nothing crossed: nothing to fit -/
theorem trajectory_nothing {S : Setup} (hI : IsStdSort sortWithS S.sortI) (hE : IsStdSort compareElements S.sortE) {tp : TP}
    (hits : List TrackHit) (hn : ∀ surf ∈ S.surfaces, ∀ s, ¬ CrossedAt tp surf s) :
    (∀ t, trajectory S tp hits ≠ .ok t) ∧
    (NoNull hits → (∀ surf ∈ S.surfaces, ∃ hit, intersectWithSurface surf tp.hp tp.rp 0 V3.zero 1 true = .ok hit) →
      ∃ m, trajectory S tp hits = .ub m) := by
  have hL : ∀ t1 L, (Traj.make tp).getIntersections S.sortI S.surfaces = (t1, .ok L) → L = [] ∧ t1.elems = [] := by
    intro t1 L h
    obtain ⟨e1, -, -, e3⟩ := C51_crossings_partial hI rfl h
    refine ⟨?_, by rw [e1]; rfl⟩
    rw [List.eq_nil_iff_forall_not_mem]
    intro x hx
    obtain ⟨surf, hs, s, hc, -⟩ := (e3 x).1 hx
    exact hn surf hs s hc
  constructor
  · intro t h
    obtain ⟨m, L, t1, -, h2, t2, h3, h4⟩ := trajectory_ok h
    obtain ⟨rfl, he⟩ := hL t1 L h2
    injection h3 with h3
    subst h3
    obtain ⟨w, hw⟩ := C50_empty S.env hE t1 he
    rw [hw] at h4
    cases h4
  · intro hnone htot
    obtain ⟨t1, L, h1⟩ := C51_defined (sort := S.sortI) (t := make tp) (surfaces := S.surfaces) (by simp [make]) htot
    obtain ⟨rfl, he⟩ := hL t1 L h1
    have hfill : ∀ (l : List (Option TrkHit)) (m : ℤ → Option TrkHit), none ∉ l → ∃ m', fillMap m l = .ok m' := by
      intro l
      induction l with
      | nil => exact fun m _ => ⟨m, rfl⟩
      | cons o l ih =>
        intro m hm
        cases o with
        | none => exact absurd (by simp) hm
        | some x => exact ih _ (fun h => hm (by simp [h]))
    obtain ⟨m', hm'⟩ := hfill _ (fun _ => none) (noNull_expand hnone)
    obtain ⟨w, hw⟩ := C50_empty S.env hE t1 he
    refine ⟨w, ?_⟩
    unfold trajectory
    simp only [hm', h1, Out.ok_bind, addAll, hw]

theorem refit_ok {S : Setup} {i : ℕ} {w w' : World} {trk : InTrack} {o : OutTrack} (h : refit S i w trk = .ok (w', o))
    (h3 : ¬ trk.hits.length < 3) : ∃ iTP t, seed trk.hits = .ok iTP ∧ trajectory S iTP trk.hits = .ok t := by
  unfold refit at h
  obtain ⟨_, -, h⟩ := Out.bind_eq_ok.mp h
  rw [if_neg h3] at h
  obtain ⟨iTP, h1, h⟩ := Out.bind_eq_ok.mp h
  obtain ⟨t, h2, -⟩ := Out.bind_eq_ok.mp h
  exact ⟨iTP, t, h1, h2⟩

theorem seed_omega {hits : List TrackHit} {h1 h2 h3 : TrackHit} (e1 : hits[0]? = some h1) (e2 : hits[(hits.length + 1) / 2]? = some h2)
    (e3 : hits[hits.length - 1]? = some h3) {tp : TP} (h : seed hits = .ok tp) :
    tp.hp OMEGA = (rawSeed h1.hit.pos h2.hit.pos h3.hit.pos).hp OMEGA := by
  rw [seed_eq e1 e2 e3] at h
  obtain ⟨⟨start, a⟩, h1, h⟩ := Out.bind_eq_ok.mp h
  injection h with h
  rw [← h]
  exact (move_const h1).1

theorem seed_defined {hits : List TrackHit} {h1 h2 h3 : TrackHit} (e1 : hits[0]? = some h1) (e2 : hits[(hits.length + 1) / 2]? = some h2)
    (e3 : hits[hits.length - 1]? = some h3) : ∃ tp, seed hits = .ok tp := by
  have hph : (rawSeed h1.hit.pos h2.hit.pos h3.hit.pos).hp PHI0 = nan ∨ IsFin ((rawSeed h1.hit.pos h2.hit.pos h3.hit.pos).hp PHI0) := by
    have key : ∀ a b : Dbl, Dbl.atan2 a b + Dbl.pi / 2 = nan ∨ IsFin (Dbl.atan2 a b + Dbl.pi / 2) := by
      intro a b
      have h2 : Dbl.pi / 2 = fin (Real.pi / 2) := by rw [pi_eq, ofNat_eq, fin_div _ two_ne_zero]
      rw [h2]
      have : Dbl.atan2 a b = nan ∨ ∃ x, Dbl.atan2 a b = fin x := by
        cases a <;> cases b <;> simp [Dbl.atan2]
      rcases this with h | ⟨x, h⟩
      · left; rw [h]; simp
      · right; rw [h, fin_add]; exact ⟨_, rfl⟩
    exact key _ _
  obtain ⟨v, hv, -⟩ := moveVals_ok (rawSeed h1.hit.pos h2.hit.pos h3.hit.pos) V3.zero hph
  rw [seed_eq e1 e2 e3]
  unfold moveHelixTo
  rw [hv]
  exact ⟨_, rfl⟩

end Refit

/-- C98 is false: a track whose first, middle and last hit are on a line in the transverse plane is not refitted.  If the hits
and surfaces give no other error, the trajectory is empty and `prepareForFitting` is undefined. -/
theorem C98_collinear_false {S : Setup} (hI : IsStdSort sortWithS S.sortI) (hE : IsStdSort compareElements S.sortE) (i : ℕ) (w : World)
    (trk : InTrack) (hlen : 3 ≤ trk.hits.length) {h1 h2 h3 : TrackHit} (e1 : trk.hits[0]? = some h1)
    (e2 : trk.hits[(trk.hits.length + 1) / 2]? = some h2) (e3 : trk.hits[trk.hits.length - 1]? = some h3)
    {x1 y1 z1 x2 y2 z2 x3 y3 z3 : ℝ} (p1 : h1.hit.pos = V3.re x1 y1 z1) (p2 : h2.hit.pos = V3.re x2 y2 z2)
    (p3 : h3.hit.pos = V3.re x3 y3 z3) (hc : (x2 - x1) * (y3 - y1) - (y2 - y1) * (x3 - x1) = 0) :
    (∀ r, refit S i w trk ≠ .ok r) ∧
    ((∃ tp, readLCIO trk.state = .ok tp) → NoNull trk.hits →
      (∀ surf ∈ S.surfaces, ∀ hp rp, ∃ hit, intersectWithSurface surf hp rp 0 V3.zero 1 true = .ok hit) →
      ∃ m, refit S i w trk = .ub m) := by
  have hcol := rawSeed_collinear (z1 := z1) (z2 := z2) (z3 := z3) hc
  rw [← p1, ← p2, ← p3] at hcol
  constructor
  · rintro ⟨w', o⟩ h
    obtain ⟨iTP, t, a1, a2⟩ := refit_ok h (by omega)
    rw [← seed_omega e1 e2 e3 a1] at hcol
    exact (trajectory_nothing hI hE trk.hits (fun surf _ s => no_crossing hcol surf s)).1 t a2
  · rintro ⟨tp, htp⟩ hnone htot
    obtain ⟨iTP, a1⟩ := seed_defined e1 e2 e3
    rw [← seed_omega e1 e2 e3 a1] at hcol
    obtain ⟨m, hm⟩ := (trajectory_nothing hI hE trk.hits (fun surf _ s => no_crossing hcol surf s)).2 hnone
      (fun surf hs => htot surf hs _ _)
    refine ⟨m, ?_⟩
    unfold refit
    rw [htp, Out.ok_bind, if_neg (by omega), a1, Out.ok_bind, hm]
    rfl

/-- C98 is false: no track with exactly three hits is refitted, since the middle hit is taken to be the last one. -/
theorem C98_three_hits_false {S : Setup} (hI : IsStdSort sortWithS S.sortI) (hE : IsStdSort compareElements S.sortE) (i : ℕ) (w : World)
    (trk : InTrack) (hlen : trk.hits.length = 3) (hpos : ∀ x ∈ trk.hits, ∃ a b c : ℝ, x.hit.pos = V3.re a b c) :
    (∀ r, refit S i w trk ≠ .ok r) ∧
    ((∃ tp, readLCIO trk.state = .ok tp) → NoNull trk.hits →
      (∀ surf ∈ S.surfaces, ∀ hp rp, ∃ hit, intersectWithSurface surf hp rp 0 V3.zero 1 true = .ok hit) →
      ∃ m, refit S i w trk = .ub m) := by
  obtain ⟨h1, h2, h3, hh⟩ : ∃ a b c, trk.hits = [a, b, c] := by
    rcases hh : trk.hits with _ | ⟨a, _ | ⟨b, _ | ⟨c, _ | ⟨d, l⟩⟩⟩⟩ <;> rw [hh] at hlen <;> simp at hlen
    exact ⟨a, b, c, rfl⟩
  obtain ⟨x1, y1, z1, p1⟩ := hpos h1 (by rw [hh]; simp)
  obtain ⟨x3, y3, z3, p3⟩ := hpos h3 (by rw [hh]; simp)
  exact C98_collinear_false hI hE i w trk (by omega) (h1 := h1) (h2 := h3) (h3 := h3) (by simp [hh]) (by simp [hh])
    (by simp [hh]) p1 p3 p3 (by ring)

/-- C98 (partial): for four or more hits, with first, middle and last hit not on a line and not at the same distance from the z
axis, the start helix exists, is given at the origin, and passes through the first hit within half a turn of the origin, and in
the transverse plane through the other two, in this order within one turn, with the difference of their z coordinates. -/
theorem C98_seed_partial {hits : List TrackHit} {h1 h2 h3 : TrackHit} (e1 : hits[0]? = some h1)
    (e2 : hits[(hits.length + 1) / 2]? = some h2) (e3 : hits[hits.length - 1]? = some h3)
    {x1 y1 z1 x2 y2 z2 x3 y3 z3 : ℝ} (p1 : h1.hit.pos = V3.re x1 y1 z1) (p2 : h2.hit.pos = V3.re x2 y2 z2)
    (p3 : h3.hit.pos = V3.re x3 y3 z3) (hnc : (x2 - x1) * (y3 - y1) - (y2 - y1) * (x3 - x1) ≠ 0)
    (hr : x1 ^ 2 + y1 ^ 2 ≠ x2 ^ 2 + y2 ^ 2 ∨ x1 ^ 2 + y1 ^ 2 ≠ x3 ^ 2 + y3 ^ 2) :
    ∃ om tl ph d z : ℝ, om ≠ 0 ∧ -Real.pi < ph ∧ ph ≤ Real.pi ∧ om * d < 1 ∧
      seed hits = .ok ⟨seedCov M5.zero, hpR om tl ph d z, V3.zero⟩ ∧
      ∃ s1 s2 s3 z2' z3' : ℝ, |s1| ≤ Real.pi / |om| ∧ s1 < s2 ∧ s2 < s3 ∧ s3 < s1 + 2 * Real.pi * |1 / om| ∧
        pointAt (fin s1) (hpR om tl ph d z) V3.zero = V3.re (x1 / 10) (y1 / 10) (z1 / 10) ∧
        pointAt (fin s2) (hpR om tl ph d z) V3.zero = V3.re (x2 / 10) (y2 / 10) z2' ∧
        pointAt (fin s3) (hpR om tl ph d z) V3.zero = V3.re (x3 / 10) (y3 / 10) z3' ∧ z3' - z2' = z3 / 10 - z2 / 10 := by
  have hsc : ∀ x y z : ℝ, scaled (V3.re x y z) = V3.re (x / 10) (y / 10) (z / 10) := by
    intro x y z; rw [scaled_re]; congr 1 <;> ring
  obtain ⟨om, tl, ph0, hom, hst, a1, s2, s3, z2', z3', a2, a3, a4, a5⟩ :=
    C18_start_helix (x1 / 10) (y1 / 10) (z1 / 10) (x2 / 10) (y2 / 10) (z2 / 10) (x3 / 10) (y3 / 10) (z3 / 10) TP.default false
      (by intro h; apply hnc; linear_combination 100 * h)
  simp only [Bool.false_eq_true, if_false] at a2
  have hpt : ∀ s : ℝ, pointAt (fin s) (hpR om tl ph0 0 0) (V3.re (x1 / 10) (y1 / 10) (z1 / 10)) =
      V3.re (rX om ph0 0 (x1 / 10) s) (rY om ph0 0 (y1 / 10) s) (rZ tl 0 (z1 / 10) s) := fun s => pointAt_re hom
  have hz0 : V3.zero = V3.re 0 0 0 := by simp only [V3.zero, V3.re, zero_eq]
  have hinj : ∀ {a b c a' b' c' : ℝ}, V3.re a b c = V3.re a' b' c' → a = a' ∧ b = b' ∧ c = c' := by
    intro a b c a' b' c' h; simpa [V3.re] using h
  rw [hpt] at a3 a4
  have hp1 := a1
  rw [show (0 : Dbl) = fin 0 from zero_eq, hpt] at hp1
  obtain ⟨q1, q2, -⟩ := hinj hp1
  obtain ⟨q3, q4, q5⟩ := hinj a3
  obtain ⟨q6, q7, q8⟩ := hinj a4
  have hs : s2 < s3 := a2.2.1
  have hzz : z3' - z2' = z3 / 10 - z2 / 10 := by
    rw [← q5, ← q8, a5]
    simp only [rZ]
    have : s3 - s2 ≠ 0 := by linarith
    field_simp
    ring
  have hoff : OffAxis (hpR om tl ph0 0 0) (V3.re (x1 / 10) (y1 / 10) (z1 / 10)) 0 0 := by
    rw [offAxis_re hom]
    by_contra hn
    have c1 := on_circle (om := om) (ph := ph0) (d := 0) (rx := x1 / 10) (ry := y1 / 10) 0
    have c2 := on_circle (om := om) (ph := ph0) (d := 0) (rx := x1 / 10) (ry := y1 / 10) s2
    have c3 := on_circle (om := om) (ph := ph0) (d := 0) (rx := x1 / 10) (ry := y1 / 10) s3
    rw [q1, q2] at c1
    rw [q3, q4] at c2
    rw [q6, q7] at c3
    generalize rCx om ph0 0 (x1 / 10) = cx at *
    generalize rCy om ph0 0 (y1 / 10) = cy at *
    have hcx : cx = 0 := by nlinarith [sq_nonneg (cx - 0), sq_nonneg (cy - 0)]
    have hcy : cy = 0 := by nlinarith [sq_nonneg (cx - 0), sq_nonneg (cy - 0)]
    subst hcx hcy
    rcases hr with hr | hr
    · apply hr; linear_combination 100 * c1 - 100 * c2
    · apply hr; linear_combination 100 * c1 - 100 * c3
  obtain ⟨cov', fn, dn, fd, k, -, -, -, b3, b4, hdn, -, -, hm⟩ := move_off (cov := TP.default.cov) (upd := false) (vz := 0) hom hoff
  obtain ⟨tp', D, hm', -, -, -, hD, hcur⟩ := C14_same_curve TP.default.cov om tl ph0 0 0 (x1 / 10) (y1 / 10) (z1 / 10) 0 0 0 false hom
  have hcov : cov' = TP.default.cov := move_keeps_cov hm
  rw [hm] at hm'
  obtain ⟨rfl, -⟩ := Prod.mk.inj (Out.ok.inj hm')
  have hcur' : ∀ s : ℝ, pointAt (fin (s - D)) (hpR om tl fn dn (z1 / 10 - 0 + 0 - 1 / om * tl * fd)) V3.zero =
      pointAt (fin s) (hpR om tl ph0 0 0) (V3.re (x1 / 10) (y1 / 10) (z1 / 10)) := by
    intro s
    obtain ⟨x, y, u, g1, g2⟩ := hcur (s - D)
    rw [sub_add_cancel] at g2
    rw [g2, hz0]
    exact g1
  refine ⟨om, tl, fn, dn, z1 / 10 - 0 + 0 - 1 / om * tl * fd, hom, b3, b4, hdn, ?_, 0 - D, s2 - D, s3 - D, z2', z3', by rwa [zero_sub, abs_neg], by linarith [a2.1], by linarith,
    by linarith [a2.2.2], ?_, ?_, ?_, hzz⟩
  · rw [seed_eq e1 e2 e3]
    unfold rawSeed
    rw [p1, p2, p3, hsc, hsc, hsc, hst, hz0, hm, hcov]
    rfl
  · rw [hcur', ← zero_eq]; exact a1
  · rw [hcur', hpt, a3]
  · rw [hcur', hpt, a4]

/-- C98 (partial): whenever the start helix and the trajectory can be made, the track is refitted: the fit gets one point per
element, and the output track has the hits of the input, the numbers of the fit, and one state, made from the fit result for
the first element. -/
theorem C98_refitted_partial {S : Setup} (hI : IsStdSort sortWithS S.sortI) (hE : IsStdSort compareElements S.sortE) (i : ℕ) (w : World)
    {trk : InTrack} (h3 : 3 ≤ trk.hits.length) {tp0 iTP : TP} {t : Traj} (h0 : readLCIO trk.state = .ok tp0)
    (h1 : seed trk.hits = .ok iTP) (h2 : trajectory S iTP trk.hits = .ok t) :
    ∃ ps r w' o, gblPoints t.elems = .ok ps ∧ ResultOf (S.gbl ps) t S.env.field 0 r ∧
      refit S i w trk = .ok (w', o) ∧ o.hits = trk.hits.map (fun x => x.hit.addr) ∧ o.nHits = trk.hits.length ∧
      o.chi2 = narrow S.fl (S.gbl ps).chi2 ∧ o.ndf = toInt ((S.gbl ps).ndf) ∧
      o.states = [{ createLCIO S.fl r.estParams with ref := V3.zero, location := 1 }] := by
  obtain ⟨L, ops, t', -, -, hs, hprep, ht⟩ := C99_calls hI h2 (rawHits_exists _)
  have hprec : ∀ op ∈ ops.reverse, PrecGiven op := by
    have : ∀ op ∈ ops, PrecGiven op := by
      clear hprep
      generalize L.map Prod.snd = K at hs
      induction hs with
      | nil => intro op h; cases h
      | hit hx hr hl ih =>
        intro op hop
        rw [List.mem_cons] at hop
        rcases hop with rfl | hop
        · simp [PrecGiven]
        · exact ih op hop
      | scatterer hn he hl ih =>
        intro op hop
        rw [List.mem_cons] at hop
        rcases hop with rfl | hop
        · trivial
        · exact ih op hop
      | skip hn he hl ih => exact ih
    intro op hop
    exact this op (List.mem_reverse.mp hop)
  obtain ⟨ps, hps, -⟩ := C73_points hE iTP ops.reverse hprec hprep
  have hel : t.elems = t'.elems := by rw [ht]
  rw [← hel] at hps
  have hne : 0 < t.elems.length := by
    rw [hel]
    obtain ⟨-, -, -, -, -, first, rest, h6, -⟩ := prepare_ok hE hprep
    rw [h6]; simp
  obtain ⟨w1, p, r, f1, f2, f3⟩ := World.fit_result S.gbl (w.step S.gbl (.setTraj i (some (t, S.env.field)))) i
    (t := t) (field := S.env.field) (by simp [World.step]) hps 0 hne
  have g1 := (fit_ok S.gbl (w.step S.gbl (.setTraj i (some (t, S.env.field)))) i (t := t) (field := S.env.field)
    (by simp [World.step]) hps).1
  have hw : ∃ w', refit S i w trk = .ok (w', write S.fl trk.hits r) := by
    unfold refit
    rw [h0, Out.ok_bind, if_neg (by omega), h1, Out.ok_bind, h2, Out.ok_bind]
    simp only [g1, Out.ok_bind]
    rw [show (((0 : ℕ) : ℤ)) = 0 from rfl] at f1
    simp only [f1, Out.ok_bind, f2]
    exact ⟨_, rfl⟩
  obtain ⟨w', hw⟩ := hw
  refine ⟨ps, r, w', write S.fl trk.hits r, hps, f3, hw, rfl, rfl, ?_, ?_, rfl⟩
  · show narrow S.fl r.chisquare = _
    rw [f3.chi2]
  · show toInt r.ndf = _
    rw [f3.ndf]
    unfold toInt
    omega

/-- C98: the number of degrees of freedom written is that of the fit, if it fits into an `int`. -/
theorem C98_ndf {S : Setup} (hI : IsStdSort sortWithS S.sortI) (hE : IsStdSort compareElements S.sortE) (i : ℕ) (w : World)
    {trk : InTrack} (h3 : 3 ≤ trk.hits.length) {tp0 iTP : TP} {t : Traj} (h0 : readLCIO trk.state = .ok tp0)
    (h1 : seed trk.hits = .ok iTP) (h2 : trajectory S iTP trk.hits = .ok t) {ps : List GblPoint} (hp : gblPoints t.elems = .ok ps)
    (hn : -2 ^ 31 ≤ (S.gbl ps).ndf) (hn' : (S.gbl ps).ndf < 2 ^ 31) {w' : World} {o : OutTrack} (h : refit S i w trk = .ok (w', o)) :
    o.ndf = (S.gbl ps).ndf := by
  obtain ⟨ps', r, w1, o', a1, -, a3, -, -, -, a7, -⟩ := C98_refitted_partial hI hE i w h3 h0 h1 h2
  rw [hp] at a1
  obtain rfl := Out.ok.inj a1
  rw [h] at a3
  obtain ⟨-, rfl⟩ := Prod.mk.inj (Out.ok.inj a3)
  rw [a7]
  unfold toInt
  omega

/-- C99: numbers of hits and surfaces are compared modulo 2^32. -/
theorem C99_numbers (a b : ℤ) : toInt a = toInt b ↔ (2 ^ 32 : ℤ) ∣ a - b := by
  unfold toInt
  omega

/-- a hit and a surface with numbers of 64 bits that agree in the lower half -/
example : toInt (5 + 2 ^ 40) = toInt 5 := (C99_numbers _ _).2 ⟨2 ^ 8, by norm_num⟩

end Verif
