import Verif.Model.RoundedDebug
import Verif.Props.DebugTracks
import Verif.Props.RoundedTrajectory
import Verif.Props.RoundedLcioNear

/-!
# The program lcio_debug_tracks in double precision: C169
-/

open Classical

noncomputable section

namespace Verif

open Dbl Rnd Spec

namespace Rnd.Dbg

open Refit (TrkHit)
open DebugTracks (DbgIn DbgOut fillSurfaces)

variable {fl : ℝ → ℝ} {lm : Libm} {at2 : ℝ → ℝ → ℝ} {asn atn : ℝ → ℝ}

/-! ## The file -/

/-- what a hit of the input contributes: nothing if there is no surface with its number or the track does not cross it within its bounds, the
crossing next to the start of the track otherwise, in mm -/
def Contributes (fl : ℝ → ℝ) (lm : Libm) (at2 : ℝ → ℝ → ℝ) (asn atn : ℝ → ℝ) (surfaces : List Surface) (recode : TrkHit → ℤ) (ts : TrackState)
    (h : TrkHit) (p : Option V3) : Prop :=
  ((∀ s ∈ surfaces, s.id ≠ recode h) ∧ p = none) ∨
  ∃ surf hit, IsLast surfaces (recode h) surf ∧
    Rnd.intersectWithSurface fl lm at2 asn atn surf (parameters fl ts).hp (parameters fl ts).rp 0 V3.zero 0 true = .ok hit ∧
    ((hit.found = false ∧ p = none) ∨ (hit.found = true ∧ p = some ⟨divD fl hit.xx.x (mmD fl), divD fl hit.xx.y (mmD fl), divD fl hit.xx.z (mmD fl)⟩))

theorem newHits_ok (surfaces : List Surface) (recode : TrkHit → ℤ) (ts : TrackState) : ∀ (hits : List TrkHit) (l : List V3),
    newHits fl lm at2 asn atn (fillSurfaces (fun _ => none) surfaces) recode (parameters fl ts) hits = .ok l ↔
      ∃ ps, List.Forall₂ (Contributes fl lm at2 asn atn surfaces recode ts) hits ps ∧ l = ps.filterMap id := by
  intro hits
  induction hits with
  | nil =>
    intro l
    rw [newHits]
    constructor
    · intro h
      injection h with h
      exact ⟨[], List.Forall₂.nil, by rw [← h]; rfl⟩
    · rintro ⟨ps, h, rfl⟩
      cases h
      rfl
  | cons a hits ih =>
    intro l
    rw [newHits]
    rcases fillSurfaces_spec surfaces (fun _ => none) (recode a) with ⟨surf, hl, e⟩ | ⟨hn, e⟩
    · simp only [e]
      constructor
      · intro h
        obtain ⟨hit, e1, h⟩ := Out.bind_eq_ok.mp h
        obtain ⟨more, e2, h⟩ := Out.bind_eq_ok.mp h
        rw [Out.pure_eq] at h
        injection h with h
        obtain ⟨ps, h1, rfl⟩ := (ih more).1 e2
        cases hf : hit.found with
        | false =>
          refine ⟨none :: ps, List.Forall₂.cons (Or.inr ⟨surf, hit, hl, e1, Or.inl ⟨hf, rfl⟩⟩) h1, ?_⟩
          rw [← h, hf]
          simp
        | true =>
          refine ⟨some (inMm fl hit.xx) :: ps, List.Forall₂.cons (Or.inr ⟨surf, hit, hl, e1, Or.inr ⟨hf, rfl⟩⟩) h1, ?_⟩
          rw [← h, hf]
          simp
      · rintro ⟨ps, h1, rfl⟩
        obtain ⟨p, ps', h2, h3, rfl⟩ := List.forall₂_cons_left_iff.mp h1
        rcases h2 with ⟨q, -⟩ | ⟨surf', hit, hl', e1, h2⟩
        · obtain ⟨l1, l2, f1, f2, -⟩ := hl
          exact absurd f2 (q surf (by rw [f1]; simp))
        · obtain rfl := hl.unique hl'
          refine Out.bind_eq_ok.mpr ⟨hit, e1, Out.bind_eq_ok.mpr ⟨_, (ih _).2 ⟨ps', h3, rfl⟩, ?_⟩⟩
          rw [Out.pure_eq]
          rcases h2 with ⟨hf, rfl⟩ | ⟨hf, rfl⟩ <;> rw [hf] <;> simp [inMm]
    · simp only [e]
      rw [ih l]
      constructor
      · rintro ⟨ps, h1, rfl⟩
        exact ⟨none :: ps, List.Forall₂.cons (Or.inl ⟨hn, rfl⟩) h1, by simp⟩
      · rintro ⟨ps, h1, rfl⟩
        obtain ⟨p, ps', h2, h3, rfl⟩ := List.forall₂_cons_left_iff.mp h1
        rcases h2 with ⟨-, rfl⟩ | ⟨surf, hit, ⟨l1, l2, f1, f2, -⟩, -⟩
        · exact ⟨ps', h3, by simp⟩
        · exact absurd f2 (hn surf (by rw [f1]; simp))

/-- the track written for a track with a state at its last hit -/
def Written (fl : ℝ → ℝ) (lm : Libm) (at2 : ℝ → ℝ → ℝ) (asn atn : ℝ → ℝ) (surfaces : List Surface) (recode : TrkHit → ℤ) (trk : DbgIn) (o : DbgOut) : Prop :=
  ∃ ts ps, trk.atLastHit = some ts ∧ o.state = ts ∧
    List.Forall₂ (Contributes fl lm at2 asn atn surfaces recode ts) trk.hits ps ∧ o.hits = ps.filterMap id

theorem event_ok (surfaces : List Surface) (recode : TrkHit → ℤ) (trk : DbgIn) (o : DbgOut) :
    event fl lm at2 asn atn (fillSurfaces (fun _ => none) surfaces) recode trk = .ok o ↔ Written fl lm at2 asn atn surfaces recode trk o := by
  unfold event Written
  cases trk.atLastHit with
  | none =>
    constructor
    · intro h; cases h
    · rintro ⟨ts, ps, h, -⟩; cases h
  | some ts =>
    simp only
    constructor
    · intro h
      obtain ⟨l, e1, h⟩ := Out.bind_eq_ok.mp h
      rw [Out.pure_eq] at h
      injection h with h
      obtain ⟨ps, h1, h2⟩ := (newHits_ok _ _ _ _ _).1 e1
      subst h
      exact ⟨ts, ps, rfl, rfl, h1, h2⟩
    · rintro ⟨ts', ps, h, h1, h2, h3⟩
      obtain rfl := Option.some.inj h
      refine Out.bind_eq_ok.mpr ⟨o.hits, (newHits_ok _ _ _ _ _).2 ⟨ps, h2, h3⟩, ?_⟩
      rw [Out.pure_eq, ← h1]

end Rnd.Dbg

open DebugTracks (DbgIn DbgOut)
open Refit (TrkHit)

variable {fl : ℝ → ℝ} {lm : Libm} {at2 : ℝ → ℝ → ℝ} {asn atn : ℝ → ℝ}

/-- C169: the events with a single track are written, in order and each with the crossings of its own track only; no other event is
written. -/
theorem C169_file (surfaces : List Surface) (recode : TrkHit → ℤ) (evts : List (List DbgIn)) (outs : List DbgOut) :
    Rnd.Dbg.program fl lm at2 asn atn surfaces recode evts = .ok outs ↔
      List.Forall₂ (Rnd.Dbg.Written fl lm at2 asn atn surfaces recode) (evts.filterMap onlyTrack) outs := by
  unfold Rnd.Dbg.program
  induction evts generalizing outs with
  | nil =>
    rw [Rnd.Dbg.events, List.filterMap_nil, List.forall₂_nil_left_iff]
    exact ⟨fun h => (Out.ok.inj h).symm, fun h => by rw [h]⟩
  | cons ev evts ih =>
    rcases ev with _ | ⟨trk, _ | ⟨b, l⟩⟩
    · rw [List.filterMap_cons]
      exact ih outs
    · rw [List.filterMap_cons, Rnd.Dbg.events]
      dsimp only [onlyTrack]
      rw [List.forall₂_cons_left_iff]
      constructor
      · intro h
        obtain ⟨o, e1, h⟩ := Out.bind_eq_ok.mp h
        obtain ⟨os, e2, h⟩ := Out.bind_eq_ok.mp h
        rw [Out.pure_eq] at h
        injection h with h
        exact ⟨o, os, (Rnd.Dbg.event_ok _ _ _ _).1 e1, (ih os).1 e2, h.symm⟩
      · rintro ⟨o, os, e1, e2, rfl⟩
        refine Out.bind_eq_ok.mpr ⟨o, (Rnd.Dbg.event_ok _ _ _ _).2 e1, Out.bind_eq_ok.mpr ⟨os, (ih os).2 e2, rfl⟩⟩
    · rw [List.filterMap_cons]
      exact ih outs

/-- C169: a single track without a state at its last hit is dereferenced nevertheless. -/
theorem C169_null (surfaces : List Surface) (recode : TrkHit → ℤ) (hits : List TrkHit) (rest : List (List DbgIn)) :
    ∃ w, Rnd.Dbg.program fl lm at2 asn atn surfaces recode ([⟨none, hits⟩] :: rest) = .ub w := ⟨_, rfl⟩

/-! ## Two tracks with almost the same parameters -/

section
variable {om om' tl ph x0 y0 z0 x0' y0' z0' : ℝ} {X Y Z x y w : ℝ → ℝ}

/-- a track in mm and almost the same one in cm -/
theorem track_units (hT : IsTrack om tl ph x0 y0 z0 X Y Z) (ht : IsTrack om' tl ph x0' y0' z0' x y w) (s : ℝ) :
    |10 * x s - X (10 * s)| ≤ |10 * x0' - x0| + |om' / 10 - om| * (10 * s) ^ 2 ∧
    |10 * y s - Y (10 * s)| ≤ |10 * y0' - y0| + |om' / 10 - om| * (10 * s) ^ 2 ∧
    |10 * w s - Z (10 * s)| ≤ |10 * z0' - z0| := by
  have key : ∀ {f g f' g' : ℝ → ℝ} {C : ℝ}, (∀ r, HasDerivAt f (f' r) r) → (∀ r, HasDerivAt g (g' r) r) →
      (∀ r, |r| ≤ |s| → |f' r - g' (10 * r)| ≤ C) → |10 * f s - g (10 * s)| ≤ |10 * f 0 - g 0| + C * (10 * |s|) := by
    intro f g f' g' C hf hg hb
    have hd : ∀ r, HasDerivAt (fun r => 10 * f r - g (10 * r)) (10 * f' r - g' (10 * r) * 10) r := fun r => by
      have h1 : HasDerivAt (fun r : ℝ => 10 * r) 10 r := by simpa using (hasDerivAt_id r).const_mul (10 : ℝ)
      exact ((hf r).const_mul 10).sub ((hg (10 * r)).comp r h1)
    have := Convex.norm_image_sub_le_of_norm_hasDerivWithin_le (f := fun r => 10 * f r - g (10 * r)) (C := 10 * C) (s := Set.Icc (-|s|) |s|) (x := 0) (y := s)
      (fun r _ => (hd r).hasDerivWithinAt) (fun r hr => by
        rw [Real.norm_eq_abs, show 10 * f' r - g' (10 * r) * 10 = 10 * (f' r - g' (10 * r)) by ring, abs_mul, abs_of_pos (show (0 : ℝ) < 10 by norm_num)]
        exact mul_le_mul_of_nonneg_left (hb r (abs_le.2 hr)) (by norm_num)) (convex_Icc _ _)
      ⟨by simp, abs_nonneg s⟩ (abs_le.1 le_rfl)
    rw [Real.norm_eq_abs, Real.norm_eq_abs, mul_zero, sub_zero] at this
    have t := abs_sub_abs_le_abs_sub (10 * f s - g (10 * s)) (10 * f 0 - g 0)
    linarith
  have ang : ∀ r, |r| ≤ |s| → |ph - om' * r - (ph - om * (10 * r))| ≤ |om' / 10 - om| * (10 * |s|) := by
    intro r hr
    rw [show ph - om' * r - (ph - om * (10 * r)) = -((om' / 10 - om) * (10 * r)) by ring, abs_neg, abs_mul, abs_mul 10, abs_of_pos (show (0 : ℝ) < 10 by norm_num)]
    exact mul_le_mul_of_nonneg_left (mul_le_mul_of_nonneg_left hr (by norm_num)) (abs_nonneg _)
  have sq : |om' / 10 - om| * (10 * s) ^ 2 = |om' / 10 - om| * (10 * |s|) * (10 * |s|) := by rw [mul_pow, ← sq_abs s]; ring
  refine ⟨?_, ?_, ?_⟩
  · rw [sq, ← ht.start_x, ← hT.start_x]
    exact key ht.vel_x hT.vel_x fun r hr => (Real.abs_cos_sub_cos_le _ _).trans (ang r hr)
  · rw [sq, ← ht.start_y, ← hT.start_y]
    exact key ht.vel_y hT.vel_y fun r hr => (Real.abs_sin_sub_sin_le _ _).trans (ang r hr)
  · have := key (C := 0) ht.vel_z hT.vel_z fun r _ => by simp
    rwa [ht.start_z, hT.start_z, zero_mul, add_zero] at this

end

/-! ## Reading and writing -/

/-- all parameters are of type `float` -/
structure FloatState (ts : TrackState) : Prop where
  pars : ∀ a ∈ [ts.d0, ts.phi, ts.omega, ts.z0, ts.tanLambda, ts.ref.x, ts.ref.y, ts.ref.z], IsFloat a

/-- `r` is the number `x` in cm -/
def ReadAs (r x : ℝ) : Prop := |10 * r - x| ≤ 8 / 2 ^ 53 * |x|

theorem readAs_le {r x : ℝ} (h : ReadAs r x) : |r| ≤ |x| / 9 := by
  have h1 := abs_sub_abs_le_abs_sub (10 * r) x
  rw [abs_mul, abs_of_pos (show (0 : ℝ) < 10 by norm_num)] at h1
  have h2 : |10 * r - x| ≤ 8 / 2 ^ 53 * |x| := h
  have h3 := abs_nonneg x
  norm_num at h2
  linarith

theorem near_real {a : Dbl} {y : ℝ} (h : Near a (fin y)) : ∃ x, a = fin x ∧ |x - y| ≤ 8 / 2 ^ 53 * |y| := by
  rcases h with rfl | ⟨x, y', e1, e2, e3⟩
  · exact ⟨y, rfl, by rw [sub_self, abs_zero]; positivity⟩
  · obtain rfl := (fin_inj _ _).1 e2
    exact ⟨x, e1, e3⟩

theorem read_length (h : NearestF 53 1074 fl) {x : ℝ} (hx : IsFloat (fin x)) : ∃ r, mulD fl (fin x) (mmD fl) = fin r ∧ ReadAs r x := by
  have := near_mul h hx.inRange
  rw [unit_mm, fin_mul] at this
  obtain ⟨r, e1, e2⟩ := near_real this
  refine ⟨r, e1, ?_⟩
  unfold ReadAs
  rw [show 10 * r - x = 10 * (r - x * (1 / 10)) by ring, abs_mul, abs_of_pos (show (0 : ℝ) < 10 by norm_num)]
  rw [abs_mul x, abs_of_pos (show (0 : ℝ) < 1 / 10 by norm_num)] at e2
  linarith

theorem read_curvature (h : NearestF 53 1074 fl) {x : ℝ} (hx : IsFloat (fin x)) :
    ∃ r, divD fl (fin x) (mmD fl) = fin r ∧ |r / 10 - x| ≤ 8 / 2 ^ 53 * |x| := by
  have := near_div h hx.inRange
  rw [unit_mm, fin_div _ (by norm_num)] at this
  obtain ⟨r, e1, e2⟩ := near_real this
  refine ⟨r, e1, ?_⟩
  rw [show r / 10 - x = (r - x / (1 / 10)) / 10 by ring, abs_div, abs_of_pos (show (0 : ℝ) < 10 by norm_num), div_le_iff₀ (by norm_num)]
  rw [show x / (1 / 10) = x * 10 by ring, abs_mul x, abs_of_pos (show (0 : ℝ) < 10 by norm_num)] at e2
  rw [show x / (1 / 10) = x * 10 by ring]
  linarith

section
variable {ts : TrackState} {om tl ph d z rx ry rz : ℝ}

/-- C169: the parameters used are those of the state, in cm, up to 8 units of 2^-53. -/
theorem C169_read (h : NearestF 53 1074 fl) (hf : FloatState ts) (hs : StateIs ts om tl ph d z rx ry rz) :
    ∃ om' d' z' rx' ry' rz', (Rnd.Dbg.parameters fl ts).hp = hpR om' tl ph d' z' ∧ (Rnd.Dbg.parameters fl ts).rp = V3.re rx' ry' rz' ∧
      |om' / 10 - om| ≤ 8 / 2 ^ 53 * |om| ∧ ReadAs d' d ∧ ReadAs z' z ∧ ReadAs rx' rx ∧ ReadAs ry' ry ∧ ReadAs rz' rz := by
  obtain ⟨h1, h2, h3, h4, h5, h6⟩ := hs
  obtain ⟨q⟩ := hf
  have f := q
  rw [h1, h2, h3, h4, h5, h6] at f
  simp only [List.mem_cons, List.not_mem_nil, or_false, forall_eq_or_imp, forall_eq, V3.re] at f
  obtain ⟨f1, f2, f3, f4, f5, f6, f7, f8⟩ := f
  obtain ⟨om', a1, b1⟩ := read_curvature h f3
  obtain ⟨d', a2, b2⟩ := read_length h f1
  obtain ⟨z', a3, b3⟩ := read_length h f4
  obtain ⟨rx', a4, b4⟩ := read_length h f6
  obtain ⟨ry', a5, b5⟩ := read_length h f7
  obtain ⟨rz', a6, b6⟩ := read_length h f8
  refine ⟨om', d', z', rx', ry', rz', ?_, ?_, b1, b2, b3, b4, b5, b6⟩
  · simp only [Rnd.Dbg.parameters, TP.setHp, TP.setRef, h1, h2, h3, h4, h5, a1, a2, a3]
    rfl
  · simp only [Rnd.Dbg.parameters, TP.setHp, TP.setRef, h6, V3.re, a4, a5, a6]

end

/-- writing of a coordinate -/
theorem write_mm (h : NearestF 53 1074 fl) {X : ℝ} (hX : |X| ≤ 2 ^ 990) :
    ∃ W, divD fl (fin X) (mmD fl) = fin W ∧ |W - 10 * X| ≤ 3 / 2 ^ 53 * |10 * X| + 1 / 2 ^ 1000 := by
  obtain ⟨e, he, em⟩ := mmD_near h
  obtain ⟨m1, m2⟩ := mm_bounds he
  have m0 : 0 < 1 / 10 * (1 + e) := lt_of_lt_of_le (by norm_num) m1
  have i0 : |X / (1 / 10 * (1 + e))| ≤ |10 * X| * (1 + 3 / 2 / 2 ^ 53) := by
    rw [abs_div, abs_of_pos m0, div_le_iff₀ m0, abs_mul, abs_of_pos (show (0 : ℝ) < 10 by norm_num)]
    obtain ⟨a1, -⟩ := unit_bounds he
    have k : 1 ≤ (1 + 3 / 2 / 2 ^ 53) * (1 + e) := by
      norm_num
      linarith
    have := mul_le_mul_of_nonneg_left k (abs_nonneg X)
    linarith
  have i1 : |X / (1 / 10 * (1 + e)) - 10 * X| ≤ |10 * X| * (3 / 2 / 2 ^ 53) := by
    rw [show X / (1 / 10 * (1 + e)) - 10 * X = 10 * X * (1 / (1 + e) - 1) by
      have := (one_add_pos he).ne'
      field_simp, abs_mul (10 * X)]
    refine mul_le_mul_of_nonneg_left ?_ (abs_nonneg _)
    obtain ⟨a1, a2⟩ := unit_bounds he
    have p := one_add_pos he
    rw [abs_le]
    constructor
    · rw [le_sub_iff_add_le, le_div_iff₀ p]
      norm_num
      linarith
    · rw [sub_le_iff_le_add, div_le_iff₀ p]
      norm_num
      linarith
  refine ⟨fl (X / (1 / 10 * (1 + e))), ?_, ?_⟩
  · rw [em, divD, fin_div _ m0.ne', rnd_double h]
    refine i0.trans ?_
    rw [abs_mul, abs_of_pos (show (0 : ℝ) < 10 by norm_num), show (2 : ℝ) ^ 1000 = 2 ^ 990 * 2 ^ 10 by rw [← pow_add]]
    have := abs_nonneg X
    generalize (2 : ℝ) ^ 990 = T at *
    norm_num
    linarith
  · have r := err_double h (X / (1 / 10 * (1 + e)))
    have t : (1 : ℝ) / 2 ^ 1075 ≤ 1 / 2 ^ 1000 := one_div_le_one_div_of_le (by positivity) (pow_le_pow_right₀ (by norm_num) (by norm_num))
    have tr := near_trans r i1
    refine tr.trans ?_
    have q0 := abs_nonneg (10 * X)
    generalize |10 * X| = Q at *
    generalize |X / (1 / 10 * (1 + e))| = P at *
    generalize (1 : ℝ) / 2 ^ 1075 = η at *
    generalize (1 : ℝ) / 2 ^ 1000 = η' at *
    norm_num at i0 ⊢
    linarith

/-- a computed point next to a track in cm, written in mm -/
theorem write_near (h : NearestF 53 1074 fl) {X x T E F : ℝ} (hX : |X| ≤ 2 ^ 990) (hE : |X - x| ≤ E) (hF : |10 * x - T| ≤ F) :
    ∃ W, divD fl (fin X) (mmD fl) = fin W ∧ |W - T| ≤ 11 * E + 11 / 10 * F + 3 / 2 ^ 53 * |T| + 1 / 2 ^ 1000 := by
  obtain ⟨W, e1, e2⟩ := write_mm h hX
  refine ⟨W, e1, ?_⟩
  have k : |10 * X - T| ≤ 10 * E + F := by
    have : |10 * X - 10 * x| ≤ 10 * E := by
      rw [← mul_sub, abs_mul, abs_of_pos (show (0 : ℝ) < 10 by norm_num)]
      linarith
    exact near_trans this hF
  have E0 := (abs_nonneg _).trans hE
  have F0 := (abs_nonneg _).trans hF
  have k2 : |10 * X| ≤ |T| + (10 * E + F) := by
    have := abs_sub_abs_le_abs_sub (10 * X) T
    linarith
  refine (near_trans e2 k).trans ?_
  have t0 := abs_nonneg T
  generalize (1 : ℝ) / 2 ^ 1000 = η' at *
  generalize |10 * X| = Q at *
  norm_num
  linarith

theorem FloatState.range {ts : TrackState} {om tl ph d z rx ry rz om' d' z' rx' ry' rz' oz : ℝ} (hf : FloatState ts) (hs : StateIs ts om tl ph d z rx ry rz)
    (h0 : om ≠ 0) (b1 : |om' / 10 - om| ≤ 8 / 2 ^ 53 * |om|) (b2 : ReadAs d' d) (b3 : ReadAs z' z) (b4 : ReadAs rx' rx) (b5 : ReadAs ry' ry) (b6 : ReadAs rz' rz)
    (ho : |oz| ≤ 2 ^ 200) : HelixRange om' tl ph d' z' rx' ry' rz' oz := by
  obtain ⟨h1, h2, h3, h4, h5, h6⟩ := hs
  obtain ⟨f⟩ := hf
  rw [h1, h2, h3, h4, h5, h6] at f
  simp only [List.mem_cons, List.not_mem_nil, or_false, forall_eq_or_imp, forall_eq, V3.re] at f
  obtain ⟨f1, f2, f3, f4, f5, f6, f7, f8⟩ := f
  have up : ∀ {x : ℝ}, IsFloat (fin x) → |x| ≤ 2 ^ 128 := fun hx => (float_range hx.1 hx.2).2
  have big : ∀ {x : ℝ}, |x| ≤ 2 ^ 128 → |x| ≤ 2 ^ 200 := fun hx => size_mono hx (by norm_num)
  have len : ∀ {r x : ℝ}, ReadAs r x → IsFloat (fin x) → |r| ≤ 2 ^ 200 := fun {r x} hr hx => big (by
    have := readAs_le hr
    have := up hx
    have := abs_nonneg x
    linarith)
  have o1 := (float_range f3.1 f3.2).1.resolve_left h0
  have o2 := up f3
  have k1 := abs_le.1 b1
  have oa := abs_nonneg om
  have k2 : |om| * (9 / 10) ≤ |om' / 10| := by
    have := abs_sub_abs_le_abs_sub om (om' / 10)
    rw [abs_sub_comm] at this
    norm_num at b1
    linarith
  have k3 : |om' / 10| ≤ |om| * (11 / 10) := by
    have := abs_sub_abs_le_abs_sub (om' / 10) om
    norm_num at b1
    linarith
  rw [abs_div, abs_of_pos (show (0 : ℝ) < 10 by norm_num)] at k2 k3
  refine ⟨?_, ?_, big (up f5), big (up f2), len b2 f1, len b3 f4, len b4 f6, len b5 f7, len b6 f8, ho⟩
  · have : (1 : ℝ) / 2 ^ 500 ≤ 1 / 2 ^ 149 := one_div_le_one_div_of_le (by positivity) (pow_le_pow_right₀ (by norm_num) (by norm_num))
    linarith
  · have : (2 : ℝ) ^ 200 = 2 ^ 128 * 2 ^ 72 := by rw [← pow_add]
    rw [this]
    generalize (2 : ℝ) ^ 128 = T at *
    norm_num
    linarith

/-- the computed points do not overflow -/
theorem disk_point_size {om ph d r s x c : ℝ} (hs : |s| ≤ 2 ^ 300) (hom : |om| ≤ 2 ^ 200) (hph : |ph| ≤ 2 ^ 200) (hd : |d| ≤ 2 ^ 200) (hr : |r| ≤ 2 ^ 200)
    (hc : |c| ≤ |r| + |d| + |s|) (hE : |x - c| ≤ 1 / 2 ^ 53 * (3 * |r| + 10 * |d| + |s| * (30 + |ph| + 3 * |om * s|)) + 1 / 2 ^ 500) : |x| ≤ 2 ^ 990 := by
  obtain ⟨p, hp⟩ : ∃ p : ℝ, p = 2 ^ 100 := ⟨_, rfl⟩
  have e2 : (2 : ℝ) ^ 200 = p ^ 2 := by rw [hp, ← pow_mul]
  have e3 : (2 : ℝ) ^ 300 = p ^ 3 := by rw [hp, ← pow_mul]
  have e9 : p ^ 9 ≤ (2 : ℝ) ^ 990 := by rw [hp, ← pow_mul]; exact pow_le_pow_right₀ (by norm_num) (by norm_num)
  have p1 : 1000 ≤ p := by rw [hp]; norm_num
  rw [e2] at hom hph hd hr
  rw [e3] at hs
  have p0 : 1 ≤ p := by linarith
  have mo : ∀ n, n ≤ 8 → p ^ n ≤ p ^ 8 := fun n hn => pow_le_pow_right₀ p0 hn
  have os : |om * s| ≤ p ^ 5 := by
    rw [abs_mul, show p ^ 5 = p ^ 2 * p ^ 3 by ring]
    exact mul_le_mul hom hs (abs_nonneg _) (by positivity)
  have big : |s| * (30 + |ph| + 3 * |om * s|) ≤ p ^ 3 * (30 + p ^ 2 + 3 * p ^ 5) :=
    mul_le_mul hs (by linarith) (by positivity) (by positivity)
  have tiny : (1 : ℝ) / 2 ^ 500 ≤ 1 := by
    rw [div_le_one (by positivity)]
    exact one_le_pow₀ (by norm_num)
  have half : (1 : ℝ) / 2 ^ 53 * (3 * |r| + 10 * |d| + |s| * (30 + |ph| + 3 * |om * s|)) ≤ 3 * |r| + 10 * |d| + |s| * (30 + |ph| + 3 * |om * s|) :=
    mul_le_of_le_one_left (by positivity) (by norm_num)
  have t := abs_sub_abs_le_abs_sub x c
  refine le_trans ?_ e9
  have m2 := mo 2 (by norm_num)
  have m3 := mo 3 (by norm_num)
  have m5 := mo 5 (by norm_num)
  have m0 := mo 0 (by norm_num)
  have last : 1000 * p ^ 8 ≤ p ^ 9 := by
    rw [show p ^ 9 = p * p ^ 8 by ring]
    exact mul_le_mul_of_nonneg_right p1 (by positivity)
  have ex : p ^ 3 * (30 + p ^ 2 + 3 * p ^ 5) = 30 * p ^ 3 + p ^ 5 + 3 * p ^ 8 := by ring
  rw [ex] at big
  rw [pow_zero] at m0
  have hE' := hE.trans (add_le_add half tiny)
  clear hE half tiny e2 e3 e9 hp mo ex os
  generalize |s| * (30 + |ph| + 3 * |om * s|) = a at *
  generalize p ^ 9 = p9, p ^ 8 = p8, p ^ 5 = p5, p ^ 3 = p3, p ^ 2 = p2 at *
  linarith

/-- the tolerance for the coordinates of the new hits on a disk, in mm: `r` and `d` are the coordinate of the reference point and the distance of the state, `S` is
the path length and `c` the coordinate of the track -/
def dbgDiskTolerance (om ph d r S c : ℝ) : ℝ :=
  1 / 2 ^ 53 * (13 * |r| + 22 * |d| + |S| * (33 + 2 * |ph| + 13 * |om * S|) + 3 * |c|) + 1 / 2 ^ 490

section
variable {ts : TrackState} {om tl ph d z rx ry rz : ℝ} {X Y Z : ℝ → ℝ}

/-- C169, disks: for every state of a file with a curvature that is not zero, a new hit on a disk is next to the track with the parameters of the file, in mm, and
next to the disk. -/
theorem C169_disk (h : NearestF 53 1074 fl) (hl : IsLibm lm) (hf : FloatState ts) (hs : StateIs ts om tl ph d z rx ry rz) (h0 : om ≠ 0)
    (htl : 1 / 2 ^ 90 ≤ |tl|) {surf : Surface} {ox oy oz : ℝ} (ho : surf.origin = V3.re ox oy oz) (hz : |oz| ≤ 2 ^ 200) (h1 : surf.type.isZCylinder = false)
    (h2 : surf.type.isZPlane = false) (h3 : surf.type.isZDisk = true)
    (hT : IsTrack om tl ph (rx - d * Real.sin ph) (ry + d * Real.cos ph) (rz + z) X Y Z) {hit : Hit}
    (hi : Rnd.intersectWithSurface fl lm at2 asn atn surf (Rnd.Dbg.parameters fl ts).hp (Rnd.Dbg.parameters fl ts).rp 0 V3.zero 0 true = .ok hit)
    (hh : hit.found = true) :
    ∃ S WX WY WZ, Rnd.Dbg.inMm fl hit.xx = V3.re WX WY WZ ∧ |WX - X S| ≤ dbgDiskTolerance om ph d rx S (X S) ∧ |WY - Y S| ≤ dbgDiskTolerance om ph d ry S (Y S) ∧
      |WZ - Z S| ≤ 1 / 2 ^ 53 * (60 * |oz| + 13 * (|rz| + |z|)) + 1 / 2 ^ 490 ∧ |WZ - 10 * oz| ≤ 1 / 2 ^ 53 * (30 * |oz|) + 1 / 2 ^ 1000 ∧
      surf.insideBounds hit.xx = true := by
  obtain ⟨om', d', z', rx', ry', rz', e1, e2, b1, b2, b3, b4, b5, b6⟩ := C169_read h hf hs
  have hr := hf.range hs h0 b1 b2 b3 b4 b5 b6 hz
  have hom : om' ≠ 0 := abs_pos.1 (lt_of_lt_of_le (by positivity) hr.om_pos)
  have ht := isTrack_r (om := om') (tl := tl) (ph := ph) (d := d') (rx := rx') (ry := ry') (rz := rz') (z := z') hom
  rw [e1, e2] at hi
  obtain ⟨s, x, y, c1, c2, c3, c4, c5, c6⟩ := C133_disk h hl hr htl ho 0 true ht
  obtain ⟨-, -, D, -⟩ := C144_dispatch fl lm at2 asn atn surf (hpR om' tl ph d' z') (V3.re rx' ry' rz') 0 V3.zero 0 true
  rw [D h1 h2 h3] at hi
  obtain rfl := Out.ok.inj hi
  rw [c6] at hh
  have s0 : (0 : ℝ) < |tl| := lt_of_lt_of_le (by positivity) htl
  have hS : |s| ≤ 2 ^ 300 := by
    rw [rZ] at c3
    have k1 := abs_le.1 c3
    have k2 : |s * tl| ≤ 2 ^ 205 := by
      have q1 := abs_le.1 hr.rz
      have q2 := abs_le.1 hr.z
      have q3 := abs_le.1 hr.s
      have q4 : |rz' + z'| ≤ 2 * 2 ^ 200 := abs_le.2 ⟨by linarith [q1.1, q2.1], by linarith [q1.2, q2.2]⟩
      have tiny : (1 : ℝ) / 2 ^ 500 ≤ 1 := by
        rw [div_le_one (by positivity)]
        exact one_le_pow₀ (by norm_num)
      have one : (1 : ℝ) ≤ 2 ^ 200 := one_le_pow₀ (by norm_num)
      have q5 := hr.s
      have e : (2 : ℝ) ^ 205 = 2 ^ 200 * 32 := by rw [show (32 : ℝ) = 2 ^ 5 by norm_num, ← pow_add]
      rw [e, abs_le]
      generalize (2 : ℝ) ^ 200 = T at *
      generalize (1 : ℝ) / 2 ^ 500 = η at *
      generalize s * tl = p at *
      norm_num at k1
      constructor <;> linarith [k1.1, k1.2]
    rw [abs_mul] at k2
    have k3 := mul_le_mul_of_nonneg_left htl (abs_nonneg s)
    have k4 : |s| * (1 / 2 ^ 90) ≤ 2 ^ 205 := k3.trans k2
    rw [mul_one_div, div_le_iff₀ (by positivity), ← pow_add] at k4
    exact size_mono k4 (by norm_num)
  have l1 := track_lip ht s 0
  rw [sub_zero, ht.start_x, ht.start_y] at l1
  have lx : |rX om' ph d' rx' s| ≤ |rx'| + |d'| + |s| := by
    have a1 := abs_sub_abs_le_abs_sub (rX om' ph d' rx' s) (rx' - d' * Real.sin ph)
    have a2 := abs_sub rx' (d' * Real.sin ph)
    have a3 : |d' * Real.sin ph| ≤ |d'| := by rw [abs_mul]; exact mul_le_of_le_one_right (abs_nonneg _) (Real.abs_sin_le_one _)
    linarith [l1.1]
  have ly : |rY om' ph d' ry' s| ≤ |ry'| + |d'| + |s| := by
    have a1 := abs_sub_abs_le_abs_sub (rY om' ph d' ry' s) (ry' + d' * Real.cos ph)
    have a2 := abs_add_le ry' (d' * Real.cos ph)
    have a3 : |d' * Real.cos ph| ≤ |d'| := by rw [abs_mul]; exact mul_le_of_le_one_right (abs_nonneg _) (Real.abs_cos_le_one _)
    linarith [l1.2]
  obtain ⟨u1, u2, u3⟩ := track_units hT ht s
  obtain ⟨WX, g1, g2⟩ := write_near h (disk_point_size hS hr.om hr.ph hr.d hr.rx lx c4) c4 u1
  obtain ⟨WY, g3, g4⟩ := write_near h (disk_point_size hS hr.om hr.ph hr.d hr.ry ly c5) c5 u2
  obtain ⟨WZ, g5, g6⟩ := write_mm h (X := oz) (size_mono hz (by norm_num))
  have oms : |om' * s| ≤ 11 / 10 * |om * (10 * s)| := by
    have k3 : |om' / 10| ≤ |om| * (11 / 10) := by
      have := abs_sub_abs_le_abs_sub (om' / 10) om
      have := abs_nonneg om
      norm_num at b1
      linarith
    rw [show om' * s = om' / 10 * (10 * s) by ring, abs_mul, abs_mul om, ← mul_assoc, mul_comm (11 / 10) |om|]
    exact mul_le_mul_of_nonneg_right k3 (abs_nonneg _)
  have s10 : |s| = |10 * s| / 10 := by rw [abs_mul, abs_of_pos (show (0 : ℝ) < 10 by norm_num)]; ring
  have bend : |om' / 10 - om| * (10 * s) ^ 2 ≤ 8 / 2 ^ 53 * (|10 * s| * |om * (10 * s)|) := by
    rw [← sq_abs, abs_mul om]
    have := mul_le_mul_of_nonneg_right b1 (sq_nonneg |10 * s|)
    linarith
  have tiny : 11 * (1 / 2 ^ 500) + 1 / 2 ^ 1000 ≤ (1 : ℝ) / 2 ^ 490 := by
    have t1 : (1 : ℝ) / 2 ^ 1000 ≤ 1 / 2 ^ 500 := one_div_le_one_div_of_le (by positivity) (pow_le_pow_right₀ (by norm_num) (by norm_num))
    have t2 : (1 : ℝ) / 2 ^ 490 = 1024 * (1 / 2 ^ 500) := by
      rw [show (2 : ℝ) ^ 500 = 2 ^ 490 * 1024 by rw [show (1024 : ℝ) = 2 ^ 10 by norm_num, ← pow_add]]
      field_simp
    have t3 : (0 : ℝ) < 1 / 2 ^ 500 := by positivity
    rw [t2]
    linarith
  have fin1 : ∀ {r r' t tr W C : ℝ}, ReadAs r' r → |t| ≤ 1 → |10 * (r' + d' * t) - (r + d * t)| ≤ 8 / 2 ^ 53 * (|r| + |d|) := by
    intro r r' t tr W C hr' ht'
    rw [show 10 * (r' + d' * t) - (r + d * t) = (10 * r' - r) + (10 * d' - d) * t by ring]
    have q1 : |10 * r' - r| ≤ 8 / 2 ^ 53 * |r| := hr'
    have q2 : |10 * d' - d| ≤ 8 / 2 ^ 53 * |d| := b2
    have q3 : |(10 * d' - d) * t| ≤ |10 * d' - d| := by rw [abs_mul]; exact mul_le_of_le_one_right (abs_nonneg _) ht'
    have := abs_add_le (10 * r' - r) ((10 * d' - d) * t)
    linarith
  have fin2 : ∀ {r r' W C F : ℝ}, ReadAs r' r → F ≤ 8 / 2 ^ 53 * (|r| + |d|) + |om' / 10 - om| * (10 * s) ^ 2 →
      |W - C| ≤ 11 * (1 / 2 ^ 53 * (3 * |r'| + 10 * |d'| + |s| * (30 + |ph| + 3 * |om' * s|)) + 1 / 2 ^ 500) + 11 / 10 * F + 3 / 2 ^ 53 * |C| + 1 / 2 ^ 1000 →
      |W - C| ≤ dbgDiskTolerance om ph d r (10 * s) C := by
    intro r r' W C F hr' hF hW
    refine hW.trans ?_
    have q1 := readAs_le hr'
    have q2 := readAs_le b2
    have q3 : |s| * (30 + |ph| + 3 * |om' * s|) ≤ |10 * s| / 10 * (30 + |ph| + 33 / 10 * |om * (10 * s)|) := by
      rw [s10]
      exact mul_le_mul_of_nonneg_left (by linarith) (by positivity)
    have q4 := abs_nonneg r
    have q5 := abs_nonneg d
    have q6 : 0 ≤ |10 * s| * |ph| := by positivity
    have q7 : 0 ≤ |10 * s| * |om * (10 * s)| := by positivity
    have q8 := abs_nonneg (10 * s)
    unfold dbgDiskTolerance
    have x1 : |10 * s| / 10 * (30 + |ph| + 33 / 10 * |om * (10 * s)|) = 3 * |10 * s| + 1 / 10 * (|10 * s| * |ph|) + 33 / 100 * (|10 * s| * |om * (10 * s)|) := by ring
    have x2 : |10 * s| * (33 + 2 * |ph| + 13 * |om * (10 * s)|) = 33 * |10 * s| + 2 * (|10 * s| * |ph|) + 13 * (|10 * s| * |om * (10 * s)|) := by ring
    rw [x1] at q3
    rw [x2]
    generalize |10 * s| * |om * (10 * s)| = a1 at *
    generalize |10 * s| * |ph| = a2 at *
    generalize |10 * s| = a3 at *
    generalize |s| * (30 + |ph| + 3 * |om' * s|) = a4 at *
    generalize |om' / 10 - om| * (10 * s) ^ 2 = a5 at *
    generalize (1 : ℝ) / 2 ^ 500 = η at *
    generalize (1 : ℝ) / 2 ^ 1000 = η' at *
    generalize (1 : ℝ) / 2 ^ 490 = η2 at *
    norm_num at hF bend ⊢
    linarith
  refine ⟨10 * s, WX, WY, WZ, ?_, fin2 b4 ?_ g2, fin2 b5 ?_ g4, ?_, ?_, ?_⟩
  · rw [Rnd.Dbg.inMm, c2]
    simp only [V3.re, g1, g3, g5]
  · have := fin1 (t := -Real.sin ph) (tr := 0) (W := 0) (C := 0) b4 (by rw [abs_neg]; exact Real.abs_sin_le_one _)
    rw [mul_neg, mul_neg, ← sub_eq_add_neg, ← sub_eq_add_neg] at this
    linarith
  · have := fin1 (t := Real.cos ph) (tr := 0) (W := 0) (C := 0) b5 (Real.abs_cos_le_one _)
    linarith
  · have q1 := readAs_le b6
    have q2 := readAs_le b3
    have q3 : |10 * rz' - rz| ≤ 8 / 2 ^ 53 * |rz| := b6
    have q4 : |10 * z' - z| ≤ 8 / 2 ^ 53 * |z| := b3
    have q5 := abs_add_le rz' z'
    have q6 := abs_add_le (10 * rz' - rz) (10 * z' - z)
    rw [show 10 * rz' - rz + (10 * z' - z) = 10 * (rz' + z') - (rz + z) by ring] at q6
    have q7 : |10 * oz - 10 * rZ tl z' rz' s| ≤ 10 * (1 / 2 ^ 53 * (3 * |oz| + 4 * |rz' + z'|) + 1 / 2 ^ 500) := by
      rw [← mul_sub, abs_mul, abs_of_pos (show (0 : ℝ) < 10 by norm_num), abs_sub_comm]
      linarith
    refine (near_trans (near_trans g6 q7) u3).trans ?_
    rw [abs_mul, abs_of_pos (show (0 : ℝ) < 10 by norm_num)]
    have q8 := abs_nonneg oz
    have q9 := abs_nonneg rz
    have q10 := abs_nonneg z
    have q11 : (0 : ℝ) < 1 / 2 ^ 500 := by positivity
    generalize |10 * (rz' + z') - (rz + z)| = a1 at *
    generalize |10 * rz' - rz| = a2 at *
    generalize |10 * z' - z| = a3 at *
    generalize |rz' + z'| = a4 at *
    generalize (1 : ℝ) / 2 ^ 500 = η at *
    generalize (1 : ℝ) / 2 ^ 1000 = η' at *
    generalize (1 : ℝ) / 2 ^ 490 = η2 at *
    norm_num at q3 q4 ⊢
    linarith
  · rw [abs_mul, abs_of_pos (show (0 : ℝ) < 10 by norm_num)] at g6
    linarith
  · rw [c2]
    exact hh.2 rfl

/-- every point of a track is reached within half a turn -/
theorem track_turn {x0 y0 z0 : ℝ} (h0 : om ≠ 0) (hT : IsTrack om tl ph x0 y0 z0 X Y Z) (t : ℝ) : ∃ t', |om * t'| ≤ Real.pi ∧ X t' = X t ∧ Y t' = Y t := by
  have p0 := Real.pi_pos
  obtain ⟨e1, e2, -⟩ := hT.unique (isTrack_r (om := om) (tl := tl) (ph := ph) (d := 0) (rx := x0) (ry := y0) (rz := z0) (z := 0) h0 |> fun k => by simpa using k)
  refine ⟨t - round (om * t / (2 * Real.pi)) * (2 * Real.pi) / om, ?_, ?_, ?_⟩
  · have := abs_sub_round (om * t / (2 * Real.pi))
    have e : om * (t - round (om * t / (2 * Real.pi)) * (2 * Real.pi) / om) = (om * t / (2 * Real.pi) - round (om * t / (2 * Real.pi))) * (2 * Real.pi) := by
      field_simp
    rw [e, abs_mul, abs_of_pos (show 0 < 2 * Real.pi by positivity)]
    calc _ ≤ 1 / 2 * (2 * Real.pi) := mul_le_mul_of_nonneg_right this (by positivity)
      _ = _ := by ring
  all_goals
    have e : ph - (t - round (om * t / (2 * Real.pi)) * (2 * Real.pi) / om) * om = ph - t * om + round (om * t / (2 * Real.pi)) * (2 * Real.pi) := by
      field_simp
      ring
  · rw [e1, rX, rX, e, Real.sin_add_int_mul_two_pi]
  · rw [e2, rY, rY, e, Real.cos_add_int_mul_two_pi]

section
variable {om' d' z' rx' ry' rz' : ℝ}

/-- the same with the parameters of the state -/
theorem dbg_units (h : NearestF 53 1074 fl) (hf : FloatState ts) (hs : StateIs ts om tl ph d z rx ry rz) (h0 : om ≠ 0)
    (e1 : (Rnd.Dbg.parameters fl ts).hp = hpR om' tl ph d' z') (e2 : (Rnd.Dbg.parameters fl ts).rp = V3.re rx' ry' rz')
    (hT : IsTrack om tl ph (rx - d * Real.sin ph) (ry + d * Real.cos ph) (rz + z) X Y Z) {x y w : ℝ → ℝ}
    (ht : IsTrack om' tl ph (rx' - d' * Real.sin ph) (ry' + d' * Real.cos ph) (rz' + z') x y w) :
    HelixRange om' tl ph d' z' rx' ry' rz' 0 ∧
    (∀ t, ∃ S, |om * S| ≤ 4 ∧ (∃ t', x t = x t' ∧ y t = y t' ∧ |10 * x t' - X S| ≤ 1 / 2 ^ 53 * (8 * (|rx| + |d|) + 32 * |S|) ∧
      |10 * y t' - Y S| ≤ 1 / 2 ^ 53 * (8 * (|ry| + |d|) + 32 * |S|))) ∧
    ∀ s, |10 * w s - Z (10 * s)| ≤ 1 / 2 ^ 53 * (8 * (|rz| + |z|)) := by
  obtain ⟨om2, d2, z2, rx2, ry2, rz2, a1, a2, b1, b2, b3, b4, b5, b6⟩ := C169_read h hf hs
  rw [e1] at a1
  rw [e2] at a2
  obtain rfl : om' = om2 := (fin_inj _ _).1 (congrFun a1 OMEGA)
  obtain rfl : d' = d2 := (fin_inj _ _).1 (congrFun a1 D0)
  obtain rfl : z' = z2 := (fin_inj _ _).1 (congrFun a1 Z0)
  obtain rfl : rx' = rx2 := (fin_inj _ _).1 (congrArg V3.x a2)
  obtain rfl : ry' = ry2 := (fin_inj _ _).1 (congrArg V3.y a2)
  obtain rfl : rz' = rz2 := (fin_inj _ _).1 (congrArg V3.z a2)
  have hr := hf.range hs h0 b1 b2 b3 b4 b5 b6 (oz := 0) (by rw [abs_zero]; positivity)
  have hom : om' ≠ 0 := abs_pos.1 (lt_of_lt_of_le (by positivity) hr.om_pos)
  have q2 : |10 * d' - d| ≤ 8 / 2 ^ 53 * |d| := b2
  refine ⟨hr, fun t => ?_, fun s => ?_⟩
  · obtain ⟨t', k1, k2, k3⟩ := track_turn hom ht t
    obtain ⟨u1, u2, -⟩ := track_units hT ht t'
    have k4 : |om * (10 * t')| ≤ 4 := by
      have m : |om| * (9 / 10) ≤ |om' / 10| := by
        have := abs_sub_abs_le_abs_sub om (om' / 10)
        rw [abs_sub_comm] at this
        have := abs_nonneg om
        norm_num at b1
        linarith
      have e : |om' / 10| * |10 * t'| ≤ Real.pi := by rw [← abs_mul, show om' / 10 * (10 * t') = om' * t' by ring]; exact k1
      have n := mul_le_mul_of_nonneg_right m (abs_nonneg (10 * t'))
      have := Real.pi_lt_d2
      rw [abs_mul]
      linarith
    have bend : |om' / 10 - om| * (10 * t') ^ 2 ≤ 8 / 2 ^ 53 * (4 * |10 * t'|) := by
      rw [← sq_abs]
      have a := mul_le_mul_of_nonneg_right b1 (sq_nonneg |10 * t'|)
      have b := mul_le_mul_of_nonneg_right k4 (abs_nonneg (10 * t'))
      rw [abs_mul om] at b
      have c : 8 / 2 ^ 53 * |om| * |10 * t'| ^ 2 ≤ 8 / 2 ^ 53 * (4 * |10 * t'|) := by
        rw [show 8 / 2 ^ 53 * |om| * |10 * t'| ^ 2 = 8 / 2 ^ 53 * (|om| * |10 * t'| * |10 * t'|) by ring]
        exact mul_le_mul_of_nonneg_left b (by positivity)
      exact a.trans c
    refine ⟨10 * t', k4, t', k2.symm, k3.symm, u1.trans ?_, u2.trans ?_⟩
    · have q1 : |10 * rx' - rx| ≤ 8 / 2 ^ 53 * |rx| := b4
      have q3 : |(10 * d' - d) * Real.sin ph| ≤ |10 * d' - d| := by rw [abs_mul]; exact mul_le_of_le_one_right (abs_nonneg _) (Real.abs_sin_le_one _)
      have := abs_sub (10 * rx' - rx) ((10 * d' - d) * Real.sin ph)
      rw [show 10 * rx' - rx - (10 * d' - d) * Real.sin ph = 10 * (rx' - d' * Real.sin ph) - (rx - d * Real.sin ph) by ring] at this
      linarith
    · have q1 : |10 * ry' - ry| ≤ 8 / 2 ^ 53 * |ry| := b5
      have q3 : |(10 * d' - d) * Real.cos ph| ≤ |10 * d' - d| := by rw [abs_mul]; exact mul_le_of_le_one_right (abs_nonneg _) (Real.abs_cos_le_one _)
      have := abs_add_le (10 * ry' - ry) ((10 * d' - d) * Real.cos ph)
      rw [show 10 * ry' - ry + (10 * d' - d) * Real.cos ph = 10 * (ry' + d' * Real.cos ph) - (ry + d * Real.cos ph) by ring] at this
      linarith
  · have q3 : |10 * rz' - rz| ≤ 8 / 2 ^ 53 * |rz| := b6
    have q4 : |10 * z' - z| ≤ 8 / 2 ^ 53 * |z| := b3
    have q6 := abs_add_le (10 * rz' - rz) (10 * z' - z)
    rw [show 10 * rz' - rz + (10 * z' - z) = 10 * (rz' + z') - (rz + z) by ring] at q6
    refine (track_units hT ht s).2.2.trans (q6.trans ?_)
    linarith

/-- the z coordinate of a new hit -/
theorem dbg_z (h : NearestF 53 1074 fl) (hl : IsLibm lm) (hr : HelixRange om' tl ph d' z' rx' ry' rz' 0) {x y w : ℝ → ℝ}
    (ht : IsTrack om' tl ph (rx' - d' * Real.sin ph) (ry' + d' * Real.cos ph) (rz' + z') x y w) {s : ℝ} (hs : |s| ≤ 2 ^ 200)
    (hw : |10 * w s - Z (10 * s)| ≤ 1 / 2 ^ 53 * (8 * (|rz| + |z|))) (q1 : |rz'| ≤ |rz| / 9) (q2 : |z'| ≤ |z| / 9) :
    ∃ W, divD fl (Rnd.calculateZfromS fl (fin s) (hpR om' tl ph d' z') (V3.re rx' ry' rz')) (mmD fl) = fin W ∧
      |W - Z (10 * s)| ≤ 1 / 2 ^ 53 * (13 * (|rz| + |z|) + 4 * |10 * s * tl| + 3 * |Z (10 * s)|) + 1 / 2 ^ 490 := by
  have hrs : HelixRange om' tl ph d' z' rx' ry' rz' s := ⟨hr.om_pos, hr.om, hr.tl, hr.ph, hr.d, hr.z, hr.rx, hr.ry, hr.rz, hs⟩
  obtain ⟨-, -, V, -, -, c1, -, -, c2⟩ := C131_points h hl hrs ht
  have hom : om' ≠ 0 := abs_pos.1 (lt_of_lt_of_le (by positivity) hr.om_pos)
  have st : |s * tl| ≤ 2 ^ 400 := by
    rw [abs_mul, show (2 : ℝ) ^ 400 = 2 ^ 200 * 2 ^ 200 by rw [← pow_add]]
    exact mul_le_mul hs hr.tl (abs_nonneg _) (by positivity)
  have tiny1 : (1 : ℝ) / 2 ^ 500 ≤ 1 := by
    rw [div_le_one (by positivity)]
    exact one_le_pow₀ (by norm_num)
  have size : |V| ≤ 2 ^ 990 := by
    obtain ⟨-, -, u3⟩ := ht.unique (isTrack_r (rx := rx') (ry := ry') (d := d') hom)
    have e : w s = rz' + z' + s * tl := by rw [u3, rZ]
    have a1 := abs_sub_abs_le_abs_sub V (w s)
    have a2 := abs_add_three rz' z' (s * tl)
    rw [← e] at a2
    have a3 : (2 : ℝ) ^ 200 ≤ 2 ^ 400 := pow_le_pow_right₀ (by norm_num) (by norm_num)
    have a4 : (2 : ℝ) ^ 400 * 100 ≤ 2 ^ 990 := by
      calc (2 : ℝ) ^ 400 * 100 ≤ 2 ^ 400 * 2 ^ 7 := mul_le_mul_of_nonneg_left (by norm_num) (by positivity)
        _ = 2 ^ 407 := by rw [← pow_add]
        _ ≤ _ := pow_le_pow_right₀ (by norm_num) (by norm_num)
    have a5 : (1 : ℝ) ≤ 2 ^ 400 := one_le_pow₀ (by norm_num)
    have a6 := hr.rz
    have a7 := hr.z
    have a8 := c2
    refine le_trans ?_ a4
    generalize (2 : ℝ) ^ 400 = T at *
    generalize (2 : ℝ) ^ 200 = T' at *
    generalize (1 : ℝ) / 2 ^ 500 = η at *
    have := abs_nonneg rz'
    have := abs_nonneg z'
    have := abs_nonneg (s * tl)
    norm_num at a8
    linarith
  obtain ⟨W, g1, g2⟩ := write_near h size c2 hw
  refine ⟨W, by rw [c1, g1], g2.trans ?_⟩
  have tiny : 11 * (1 / 2 ^ 500) + 1 / 2 ^ 1000 ≤ (1 : ℝ) / 2 ^ 490 := by
    have t1 : (1 : ℝ) / 2 ^ 1000 ≤ 1 / 2 ^ 500 := one_div_le_one_div_of_le (by positivity) (pow_le_pow_right₀ (by norm_num) (by norm_num))
    have t2 : (1 : ℝ) / 2 ^ 490 = 1024 * (1 / 2 ^ 500) := by
      rw [show (2 : ℝ) ^ 500 = 2 ^ 490 * 1024 by rw [show (1024 : ℝ) = 2 ^ 10 by norm_num, ← pow_add]]
      field_simp
    have t3 : (0 : ℝ) < 1 / 2 ^ 500 := by positivity
    rw [t2]
    linarith
  have e : |10 * s * tl| = 10 * |s * tl| := by rw [mul_assoc, abs_mul, abs_of_pos (show (0 : ℝ) < 10 by norm_num)]
  rw [e]
  clear st c2 g2 tiny1
  generalize (1 : ℝ) / 2 ^ 500 = η at *
  generalize (1 : ℝ) / 2 ^ 1000 = η' at *
  generalize (1 : ℝ) / 2 ^ 490 = η2 at *
  have := abs_nonneg rz
  have := abs_nonneg z
  have := abs_nonneg (s * tl)
  generalize |s * tl| = a at *
  norm_num
  linarith

/-- C169, cylinders (partial): a new hit on a cylinder is next to the cylinder, in mm, its coordinates x and y are next to a point of the track with the parameters of
the file, and its coordinate z is that of the track at the computed path length.  M is the size of the geometry in cm.  Missing: that both path lengths agree, which is
false for tracks that turn too little (`C148_false`). -/
theorem C169_cylinder_partial (h : NearestF 53 1074 fl) (hl : IsLibm lm) (ha2 : IsAtan2 at2) (has : IsAsin asn) (hf : FloatState ts)
    (hs : StateIs ts om tl ph d z rx ry rz) (h0 : om ≠ 0) (e1 : (Rnd.Dbg.parameters fl ts).hp = hpR om' tl ph d' z')
    (e2 : (Rnd.Dbg.parameters fl ts).rp = V3.re rx' ry' rz') {M a b c rho : ℝ} (hr : CylRange M om' ph d' rx' ry' a b rho) {surf : Surface}
    (hc : surf.cyl = some (fin rho, V3.re a b c)) (h1 : surf.type.isZCylinder = true)
    (hT : IsTrack om tl ph (rx - d * Real.sin ph) (ry + d * Real.cos ph) (rz + z) X Y Z) {hit : Hit}
    (hi : Rnd.intersectWithSurface fl lm at2 asn atn surf (Rnd.Dbg.parameters fl ts).hp (Rnd.Dbg.parameters fl ts).rp 0 V3.zero 0 true = .ok hit)
    (hh : hit.found = true) :
    (∃ S WX WY, (Rnd.Dbg.inMm fl hit.xx).x = fin WX ∧ (Rnd.Dbg.inMm fl hit.xx).y = fin WY ∧ |om * S| ≤ 4 ∧
      |WX - X S| ≤ 11 / 2 ^ 42 * (M * (1 + |om'| * M)) + 1 / 2 ^ 53 * (9 * (|rx| + |d|) + 36 * |S| + 3 * |X S|) + 1 / 2 ^ 1000 ∧
      |WY - Y S| ≤ 11 / 2 ^ 42 * (M * (1 + |om'| * M)) + 1 / 2 ^ 53 * (9 * (|ry| + |d|) + 36 * |S| + 3 * |Y S|) + 1 / 2 ^ 1000 ∧
      |√((WX - 10 * a) ^ 2 + (WY - 10 * b) ^ 2) - 10 * rho| ≤ 1 / 2 ^ 42 * M) ∧
    (∀ s, hit.s = fin s → |s| ≤ 2 ^ 200 → ∃ WZ, (Rnd.Dbg.inMm fl hit.xx).z = fin WZ ∧
      |WZ - Z (10 * s)| ≤ 1 / 2 ^ 53 * (13 * (|rz| + |z|) + 4 * |10 * s * tl| + 3 * |Z (10 * s)|) + 1 / 2 ^ 490) ∧
    surf.insideBounds hit.xx = true := by
  have hom : om' ≠ 0 := by
    obtain ⟨o2, _, _, _, _, _, k1, k2, k3, k4, k5, k6, k7, k8⟩ := C169_read h hf hs
    rw [e1] at k1
    obtain rfl : om' = o2 := (fin_inj _ _).1 (congrFun k1 OMEGA)
    rintro rfl
    rw [zero_div, zero_sub, abs_neg] at k3
    have := abs_pos.2 h0
    norm_num at k3
    linarith
  have ht := isTrack_r (om := om') (tl := tl) (ph := ph) (d := d') (rx := rx') (ry := ry') (rz := rz') (z := z') hom
  obtain ⟨R, U, V⟩ := dbg_units h hf hs h0 e1 e2 hT ht
  rw [e1, e2] at hi
  obtain ⟨D, -⟩ := C144_dispatch fl lm at2 asn atn surf (hpR om' tl ph d' z') (V3.re rx' ry' rz') 0 V3.zero 0 true
  rw [D h1] at hi
  obtain ⟨x, y, t, c1, c2, c3, c4, c5, c6, c7⟩ := C141_points h hl ha2 has hr hc hi hh ht
  obtain ⟨M0, -, -⟩ := hr.pos
  refine ⟨?_, ?_, c7 rfl⟩
  · obtain ⟨S, s1, t', s2, s3, s4, s5⟩ := U t
    rw [s2, s3] at c4
    have p1 : |x - rX om' ph d' rx' t'| ≤ 1 / 2 ^ 42 * (M * (1 + |om'| * M)) := le_trans (Real.abs_le_sqrt (by nlinarith [sq_nonneg (y - rY om' ph d' ry' t')])) c4
    have p2 : |y - rY om' ph d' ry' t'| ≤ 1 / 2 ^ 42 * (M * (1 + |om'| * M)) := le_trans (Real.abs_le_sqrt (by nlinarith [sq_nonneg (x - rX om' ph d' rx' t')])) c4
    have up : √((x - a) ^ 2 + (y - b) ^ 2) ≤ 11 / 10 * M := by
      have := (abs_le.1 c3).2
      have := hr.hrho'
      norm_num at c3
      norm_num at this
      linarith
    have x3 : |x| ≤ 3 * M := by
      have k : |x - a| ≤ 11 / 10 * M := le_trans (Real.abs_le_sqrt (by nlinarith [sq_nonneg (y - b)])) up
      have := abs_sub_abs_le_abs_sub x a
      have := hr.ha
      linarith
    have y3 : |y| ≤ 3 * M := by
      have k : |y - b| ≤ 11 / 10 * M := le_trans (Real.abs_le_sqrt (by nlinarith [sq_nonneg (x - a)])) up
      have := abs_sub_abs_le_abs_sub y b
      have := hr.hb
      linarith
    have M3 : 3 * M ≤ 2 ^ 990 := by
      calc 3 * M ≤ 4 * 2 ^ 100 := by linarith [hr.M2]
        _ = 2 ^ 102 := by norm_num
        _ ≤ _ := pow_le_pow_right₀ (by norm_num) (by norm_num)
    obtain ⟨WX, g1, g2⟩ := write_near h (x3.trans M3) p1 s4
    obtain ⟨WY, g3, g4⟩ := write_near h (y3.trans M3) p2 s5
    obtain ⟨WX', f1, f2⟩ := write_mm h (x3.trans M3)
    obtain ⟨WY', f3, f4⟩ := write_mm h (y3.trans M3)
    obtain rfl : WX = WX' := (fin_inj _ _).1 (g1.symm.trans f1)
    obtain rfl : WY = WY' := (fin_inj _ _).1 (g3.symm.trans f3)
    refine ⟨S, WX, WY, by rw [Rnd.Dbg.inMm, c1, g1], by rw [Rnd.Dbg.inMm, c2, g3], s1, ?_, ?_, ?_⟩
    · refine g2.trans ?_
      have := abs_nonneg rx
      have := abs_nonneg d
      have := abs_nonneg S
      generalize (1 : ℝ) / 2 ^ 1000 = η
      generalize M * (1 + |om'| * M) = Q
      norm_num
      linarith
    · refine g4.trans ?_
      have := abs_nonneg ry
      have := abs_nonneg d
      have := abs_nonneg S
      generalize (1 : ℝ) / 2 ^ 1000 = η
      generalize M * (1 + |om'| * M) = Q
      norm_num
      linarith
    · have T1 := plane_triangle WX WY (10 * x) (10 * y) (10 * a) (10 * b)
      have T2 := plane_triangle (10 * x) (10 * y) WX WY (10 * a) (10 * b)
      have ten : √((10 * x - 10 * a) ^ 2 + (10 * y - 10 * b) ^ 2) = 10 * √((x - a) ^ 2 + (y - b) ^ 2) := by
        rw [show (10 * x - 10 * a) ^ 2 + (10 * y - 10 * b) ^ 2 = 10 ^ 2 * ((x - a) ^ 2 + (y - b) ^ 2) by ring, Real.sqrt_mul (by norm_num),
          Real.sqrt_sq (by norm_num)]
      have sw : √((10 * x - WX) ^ 2 + (10 * y - WY) ^ 2) = √((WX - 10 * x) ^ 2 + (WY - 10 * y) ^ 2) := by congr 1; ring
      have sm : √((WX - 10 * x) ^ 2 + (WY - 10 * y) ^ 2) ≤ |WX - 10 * x| + |WY - 10 * y| := by
        rw [Real.sqrt_le_left (by positivity), add_sq, sq_abs, sq_abs]
        have : 0 ≤ |WX - 10 * x| * |WY - 10 * y| := by positivity
        linarith
      have tiny : (1 : ℝ) / 2 ^ 1000 ≤ 1 / 2 ^ 53 * M := by
        refine le_trans ?_ (mul_le_mul_of_nonneg_left hr.M1 (by positivity))
        rw [one_div_mul_one_div, ← pow_add]
        exact one_div_le_one_div_of_le (by positivity) (pow_le_pow_right₀ (by norm_num) (by norm_num))
      rw [abs_mul, abs_of_pos (show (0 : ℝ) < 10 by norm_num)] at f2 f4
      rw [ten] at T1 T2
      rw [sw] at T2
      have c3' := abs_le.1 c3
      rw [abs_le]
      generalize √((WX - 10 * a) ^ 2 + (WY - 10 * b) ^ 2) = A1 at *
      generalize √((x - a) ^ 2 + (y - b) ^ 2) = A2 at *
      generalize √((WX - 10 * x) ^ 2 + (WY - 10 * y) ^ 2) = A3 at *
      generalize (1 : ℝ) / 2 ^ 1000 = η at *
      norm_num at f2 f4 tiny c3' ⊢
      constructor <;> linarith [c3'.1, c3'.2]
  · intro s hs' hsz
    have q : |rz'| ≤ |rz| / 9 ∧ |z'| ≤ |z| / 9 := by
      obtain ⟨_, _, z2, _, _, rz2, k1, k2, k3, k4, k5, k6, k7, k8⟩ := C169_read h hf hs
      rw [e1] at k1
      rw [e2] at k2
      obtain rfl : z' = z2 := (fin_inj _ _).1 (congrFun k1 Z0)
      obtain rfl : rz' = rz2 := (fin_inj _ _).1 (congrArg V3.z k2)
      exact ⟨readAs_le k8, readAs_le k5⟩
    obtain ⟨W, w1, w2⟩ := dbg_z h hl R ht hsz (V s) q.1 q.2
    exact ⟨W, by rw [Rnd.Dbg.inMm, c6, hs', w1], w2⟩

/-- C169, planes parallel to z (partial): a new hit on a plane is next to the plane, in mm, its coordinates x and y are next to a point of the track with the parameters
of the file, and its coordinate z is that of the track at the computed path length.  M is the size of the geometry in cm, L includes the radius.  Missing: as for
C143 (tracks that touch the plane, for which the hit can have undefined coordinates, and normals to the other side) and as for `C169_cylinder_partial`. -/
theorem C169_plane_partial (h : NearestF 53 1074 fl) (hl : IsLibm lm) (hf : FloatState ts)
    (hs : StateIs ts om tl ph d z rx ry rz) (h0 : om ≠ 0) (e1 : (Rnd.Dbg.parameters fl ts).hp = hpR om' tl ph d' z')
    (e2 : (Rnd.Dbg.parameters fl ts).rp = V3.re rx' ry' rz') {M L n0 n1 ox oy oz : ℝ} (hr : PlaneRange M d' rx' ry' n0 n1 ox oy) (o1 : 1 / 2 ^ 90 ≤ |om'|)
    (o2 : |om'| ≤ 2 ^ 90) (eL : L = M + 1 / |om'|) {surf : Surface} (hn : surf.normal V3.zero = V3.re n0 n1 0) (ho : surf.origin = V3.re ox oy oz)
    (h1 : surf.type.isZCylinder = false) (h2 : surf.type.isZPlane = true)
    (hd : 11 / 10 ^ 10 + 1 / 2 ^ 42 * L ^ 2 < |clDisc (rCx om' ph d' rx') (rCy om' ph d' ry') (1 / |om'|) n0 n1 (ox * n0 + oy * n1)|)
    (hT : IsTrack om tl ph (rx - d * Real.sin ph) (ry + d * Real.cos ph) (rz + z) X Y Z) {hit : Hit}
    (hi : Rnd.intersectWithSurface fl lm at2 asn atn surf (Rnd.Dbg.parameters fl ts).hp (Rnd.Dbg.parameters fl ts).rp 0 V3.zero 0 true = .ok hit)
    (hh : hit.found = true) :
    (∃ S WX WY, (Rnd.Dbg.inMm fl hit.xx).x = fin WX ∧ (Rnd.Dbg.inMm fl hit.xx).y = fin WY ∧ |om * S| ≤ 4 ∧
      |WX - X S| ≤ 11 / 2 ^ 40 * (|om'| * L ^ 2) + 1 / 2 ^ 53 * (9 * (|rx| + |d|) + 36 * |S| + 3 * |X S|) + 1 / 2 ^ 1000 ∧
      |WY - Y S| ≤ 11 / 2 ^ 40 * (|om'| * L ^ 2) + 1 / 2 ^ 53 * (9 * (|ry| + |d|) + 36 * |S| + 3 * |Y S|) + 1 / 2 ^ 1000 ∧
      |n0 * (WX - 10 * ox) + n1 * (WY - 10 * oy)| ≤ 10 / 2 ^ 43 * L + 5 / 2 ^ 53 * (|WX| + |WY|) + 1 / 2 ^ 990) ∧
    (∀ s, hit.s = fin s → |s| ≤ 2 ^ 200 → ∃ WZ, (Rnd.Dbg.inMm fl hit.xx).z = fin WZ ∧
      |WZ - Z (10 * s)| ≤ 1 / 2 ^ 53 * (13 * (|rz| + |z|) + 4 * |10 * s * tl| + 3 * |Z (10 * s)|) + 1 / 2 ^ 490) ∧
    surf.insideBounds hit.xx = true := by
  have hom : om' ≠ 0 := abs_pos.1 (lt_of_lt_of_le (by positivity) o1)
  have ht := isTrack_r (om := om') (tl := tl) (ph := ph) (d := d') (rx := rx') (ry := ry') (rz := rz') (z := z') hom
  obtain ⟨R, U, V⟩ := dbg_units h hf hs h0 e1 e2 hT ht
  rw [e1, e2] at hi
  obtain ⟨-, D, -⟩ := C144_dispatch fl lm at2 asn atn surf (hpR om' tl ph d' z') (V3.re rx' ry' rz') 0 V3.zero 0 true
  rw [D h1 h2] at hi
  obtain ⟨c, c5, c6, c7⟩ := C143_points_partial h hl hr o1 o2 eL hn ho hi hh ht
  rcases c with ⟨x, y, t, c1, c2, c3, c4⟩ | ⟨-, -, c3⟩
  swap
  · exact absurd c3 (not_le.2 hd)
  refine ⟨?_, ?_, c7 rfl⟩
  · obtain ⟨S, s1, t', s2, s3, s4, s5⟩ := U t
    rw [s2, s3] at c4
    have p1 : |x - rX om' ph d' rx' t'| ≤ 1 / 2 ^ 40 * (|om'| * L ^ 2) := le_trans (Real.abs_le_sqrt (by nlinarith [sq_nonneg (y - rY om' ph d' ry' t')])) c4
    have p2 : |y - rY om' ph d' ry' t'| ≤ 1 / 2 ^ 40 * (|om'| * L ^ 2) := le_trans (Real.abs_le_sqrt (by nlinarith [sq_nonneg (x - rX om' ph d' rx' t')])) c4
    obtain ⟨x3, y3⟩ : |x| ≤ 2 ^ 990 ∧ |y| ≤ 2 ^ 990 := by
      have i1 : |1 / om'| ≤ 2 ^ 90 := by
        rw [abs_div, abs_one]
        calc 1 / |om'| ≤ 1 / (1 / 2 ^ 90) := one_div_le_one_div_of_le (by positivity) o1
          _ = 2 ^ 90 := by rw [one_div_one_div]
      have i2 : |om'| * L ^ 2 ≤ 2 ^ 90 * (2 ^ 91) ^ 2 := by
        have : 0 ≤ L := by rw [eL]; have := hr.M1; positivity
        have : L ≤ 2 ^ 91 := by
          rw [abs_div, abs_one] at i1
          rw [eL]
          have := hr.M2
          norm_num at *
          linarith
        gcongr
      have tr : ∀ u v : ℝ, |Real.sin u - Real.sin v| ≤ 2 ∧ |Real.cos u - Real.cos v| ≤ 2 := fun u v => by
        constructor <;> rw [abs_le] <;> constructor <;>
          linarith [Real.sin_le_one u, Real.neg_one_le_sin u, Real.sin_le_one v, Real.neg_one_le_sin v, Real.cos_le_one u, Real.neg_one_le_cos u,
            Real.cos_le_one v, Real.neg_one_le_cos v]
      have big : ∀ {v w p q r : ℝ}, |v - w| ≤ 1 / 2 ^ 40 * (|om'| * L ^ 2) → w = p + q + r → |p| ≤ M → |q| ≤ M → |r| ≤ 2 ^ 90 * 2 → |v| ≤ 2 ^ 990 := by
        intro v w p q r b1 b2 b3 b4 b5
        have b6 := abs_add_three p q r
        have b7 := abs_sub_abs_le_abs_sub v w
        rw [← b2] at b6
        have b8 := hr.M2
        have : |v| ≤ 2 ^ 250 := by
          norm_num at *
          linarith
        exact this.trans (pow_le_pow_right₀ (by norm_num) (by norm_num))
      have un : ∀ c : ℝ, |c| ≤ 1 → |d' * c| ≤ M := fun c hc' => by
        rw [abs_mul]
        exact (mul_le_of_le_one_right (abs_nonneg _) hc').trans hr.hd
      refine ⟨big p1 (show _ = rx' + -(d' * Real.sin ph) + 1 / om' * (Real.sin ph - Real.sin (ph - t' * om')) by rw [rX]; ring) hr.hrx
        (by rw [abs_neg]; exact un _ (Real.abs_sin_le_one _)) ?_,
        big p2 (show _ = ry' + d' * Real.cos ph + -(1 / om' * (Real.cos ph - Real.cos (ph - t' * om'))) by rw [rY]; ring) hr.hry
        (un _ (Real.abs_cos_le_one _)) ?_⟩
      · rw [abs_mul]
        exact mul_le_mul i1 (tr _ _).1 (abs_nonneg _) (by positivity)
      · rw [abs_neg, abs_mul]
        exact mul_le_mul i1 (tr _ _).2 (abs_nonneg _) (by positivity)
    obtain ⟨WX, g1, g2⟩ := write_near h x3 p1 s4
    obtain ⟨WY, g3, g4⟩ := write_near h y3 p2 s5
    obtain ⟨WX', f1, f2⟩ := write_mm h x3
    obtain ⟨WY', f3, f4⟩ := write_mm h y3
    obtain rfl : WX = WX' := (fin_inj _ _).1 (g1.symm.trans f1)
    obtain rfl : WY = WY' := (fin_inj _ _).1 (g3.symm.trans f3)
    refine ⟨S, WX, WY, by rw [Rnd.Dbg.inMm, c1, g1], by rw [Rnd.Dbg.inMm, c2, g3], s1, ?_, ?_, ?_⟩
    · refine g2.trans ?_
      have := abs_nonneg rx
      have := abs_nonneg d
      have := abs_nonneg S
      generalize (1 : ℝ) / 2 ^ 1000 = η
      generalize |om'| * L ^ 2 = Q
      norm_num
      linarith
    · refine g4.trans ?_
      have := abs_nonneg ry
      have := abs_nonneg d
      have := abs_nonneg S
      generalize (1 : ℝ) / 2 ^ 1000 = η
      generalize |om'| * L ^ 2 = Q
      norm_num
      linarith
    · obtain ⟨m0, m1⟩ := hr.comp
      have k : ∀ {W v n : ℝ}, |n| ≤ 201 / 200 → |W - 10 * v| ≤ 3 / 2 ^ 53 * |10 * v| + 1 / 2 ^ 1000 → |n * (W - 10 * v)| ≤ 5 / 2 ^ 53 * |W| + 2 * (1 / 2 ^ 1000) := by
        intro W v n hn' hW
        have a1 := abs_sub_abs_le_abs_sub (10 * v) W
        rw [abs_sub_comm] at a1
        rw [abs_mul]
        have a2 := mul_le_mul_of_nonneg_right hn' (abs_nonneg (W - 10 * v))
        have a3 := abs_nonneg W
        have a4 : (0 : ℝ) < 1 / 2 ^ 1000 := by positivity
        generalize (1 : ℝ) / 2 ^ 1000 = η at *
        generalize |10 * v| = q at *
        generalize |W - 10 * v| = e at *
        norm_num at hW ⊢
        linarith
      have k0 := k m0 f2
      have k1 := k m1 f4
      have k2 : |10 * (n0 * (x - ox) + n1 * (y - oy))| ≤ 10 / 2 ^ 43 * L := by
        rw [abs_mul, abs_of_pos (show (0 : ℝ) < 10 by norm_num)]
        linarith
      have k3 := abs_add_three (n0 * (WX - 10 * x)) (n1 * (WY - 10 * y)) (10 * (n0 * (x - ox) + n1 * (y - oy)))
      rw [show n0 * (WX - 10 * x) + n1 * (WY - 10 * y) + 10 * (n0 * (x - ox) + n1 * (y - oy)) = n0 * (WX - 10 * ox) + n1 * (WY - 10 * oy) by ring] at k3
      have tiny : 4 * (1 / 2 ^ 1000) ≤ (1 : ℝ) / 2 ^ 990 := by
        rw [show (2 : ℝ) ^ 1000 = 2 ^ 990 * 2 ^ 10 by rw [← pow_add], ← one_div_mul_one_div]
        have : (0 : ℝ) < 1 / 2 ^ 990 := by positivity
        generalize (1 : ℝ) / 2 ^ 990 = η at *
        norm_num
        linarith
      linarith
  · intro s hs' hsz
    have q : |rz'| ≤ |rz| / 9 ∧ |z'| ≤ |z| / 9 := by
      obtain ⟨_, _, z2, _, _, rz2, k1, k2, k3, k4, k5, k6, k7, k8⟩ := C169_read h hf hs
      rw [e1] at k1
      rw [e2] at k2
      obtain rfl : z' = z2 := (fin_inj _ _).1 (congrFun k1 Z0)
      obtain rfl : rz' = rz2 := (fin_inj _ _).1 (congrArg V3.z k2)
      exact ⟨readAs_le k8, readAs_le k5⟩
    obtain ⟨W, w1, w2⟩ := dbg_z h hl R ht hsz (V s) q.1 q.2
    exact ⟨W, by rw [Rnd.Dbg.inMm, c6, hs', w1], w2⟩

end

end

/-! ## Concrete cases -/

namespace Example

/-- a disk at z = 30 cm without boundary -/
def dbgDisk : Surface := { tubeMid (1 / 1000) with type := fun i => decide (i = 1 ∨ i = 5), cyl := none, origin := V3.re 0 0 30, insideBounds := fun _ => true, id := 7 }

/-- a state of a file with the radius 1024 mm -/
def dbgState : TrackState := ⟨3, fin 3, fin 1, fin (1 / 2 ^ 10), fin (-2), fin 1, [], V3.re 1 2 3⟩

theorem dbgState_is : StateIs dbgState (1 / 2 ^ 10) 1 1 3 (-2) 1 2 3 := ⟨rfl, rfl, rfl, rfl, rfl, rfl⟩

theorem dbgState_float : FloatState dbgState := by
  constructor
  have k : ∀ m : ℤ, |m| ≤ 2 ^ 24 → IsFloat (fin m) := fun m hm => by
    have := isFloat_dyadic m 0 hm (by norm_num)
    rwa [pow_zero, div_one] at this
  have k1 := k 1 (by norm_num)
  have k2 := k 2 (by norm_num)
  have k3 := k 3 (by norm_num)
  have k4 := k (-2) (by norm_num)
  have k5 := isFloat_dyadic 1 10 (by norm_num) (by norm_num)
  push_cast at k1 k2 k3 k4 k5
  intro a ha
  simp only [dbgState, V3.re, List.mem_cons, List.not_mem_nil, or_false] at ha
  rcases ha with rfl | rfl | rfl | rfl | rfl | rfl | rfl | rfl <;> assumption

end Example

/-- C169_file and C169_disk, concrete case: of three events the second has a single track, with a hit on the disk; one event is written, with a hit at the disk and
next to the track. -/
example (h : NearestF 53 1074 fl) (hl : IsLibm lm) (x : TrkHit) (a b : DbgIn) : ∃ S WX WY WZ,
    Rnd.Dbg.program fl lm at2 asn atn [Example.dbgDisk] (fun _ => 7) [[], [⟨some Example.dbgState, [x]⟩], [a, b]] =
      .ok [⟨Example.dbgState, [V3.re WX WY WZ]⟩] ∧ |WZ - 300| ≤ 1 / 10 ^ 12 ∧
    |WX - rX (1 / 2 ^ 10) 1 3 1 S| ≤ dbgDiskTolerance (1 / 2 ^ 10) 1 3 1 S (rX (1 / 2 ^ 10) 1 3 1 S) ∧ |rZ 1 (-2) 3 S - 300| ≤ 1 / 10 ^ 11 := by
  have hz : Example.dbgDisk.type.isZCylinder = false ∧ Example.dbgDisk.type.isZPlane = false ∧ Example.dbgDisk.type.isZDisk = true := by
    simp [Example.dbgDisk, SurfaceType.isZCylinder, SurfaceType.isZPlane, SurfaceType.isZDisk, SurfaceType.isCylinder, SurfaceType.isPlane, SurfaceType.isParallelToZ,
      SurfaceType.isOrthogonalToZ]
  obtain ⟨z1, z2, z3⟩ := hz
  obtain ⟨om', d', z', rx', ry', rz', e1, e2, b1, b2, b3, b4, b5, b6⟩ := C169_read h Example.dbgState_float Example.dbgState_is
  have hr := Example.dbgState_float.range (oz := 30) Example.dbgState_is (by norm_num) b1 b2 b3 b4 b5 b6 (by norm_num)
  have hom : om' ≠ 0 := abs_pos.1 (lt_of_lt_of_le (by positivity) hr.om_pos)
  obtain ⟨s, X, Y, c1, c2, -, -, -, c6⟩ := C133_disk h hl hr (by norm_num) (surf := Example.dbgDisk) rfl 0 true (isTrack_r hom)
  obtain ⟨-, -, D, -⟩ := C144_dispatch fl lm at2 asn atn Example.dbgDisk (Rnd.Dbg.parameters fl Example.dbgState).hp (Rnd.Dbg.parameters fl Example.dbgState).rp 0 V3.zero 0 true
  have hi := D z1 z2 z3
  have hh : (Rnd.intersectWithZDisk fl lm Example.dbgDisk (Rnd.Dbg.parameters fl Example.dbgState).hp (Rnd.Dbg.parameters fl Example.dbgState).rp 0 true).found = true := by
    rw [e1, e2]
    exact c6.2 ⟨.inl rfl, fun _ => rfl⟩
  obtain ⟨S, WX, WY, WZ, g1, g2, -, g4, g5, -⟩ := C169_disk h hl Example.dbgState_float Example.dbgState_is (by norm_num) (by norm_num) (surf := Example.dbgDisk) rfl
    (by norm_num) z1 z2 z3 (isTrack_r (by norm_num)) hi hh
  have g6 : |WZ - 300| ≤ 1 / 10 ^ 12 := by
    have : (1 : ℝ) / 2 ^ 1000 ≤ 1 / 2 ^ 60 := one_div_le_one_div_of_le (by positivity) (pow_le_pow_right₀ (by norm_num) (by norm_num))
    generalize (1 : ℝ) / 2 ^ 1000 = η at *
    norm_num at g5 this ⊢
    linarith
  refine ⟨S, WX, WY, WZ, (C169_file _ _ _ _).2 ?_, g6, g2, ?_⟩
  · refine .cons ⟨Example.dbgState, [some (V3.re WX WY WZ)], rfl, rfl, .cons (Or.inr ⟨Example.dbgDisk, _, ⟨[], [], rfl, rfl, by simp⟩, hi, Or.inr ⟨hh, ?_⟩⟩) .nil, rfl⟩ .nil
    rw [← g1]
    rfl
  · have : (1 : ℝ) / 2 ^ 490 ≤ 1 / 2 ^ 60 := one_div_le_one_div_of_le (by positivity) (pow_le_pow_right₀ (by norm_num) (by norm_num))
    have k := abs_sub_le (rZ 1 (-2) 3 S) WZ 300
    rw [abs_sub_comm] at g4
    generalize (1 : ℝ) / 2 ^ 490 = η at *
    norm_num at g4 g6 this ⊢
    linarith

/-- C169_cylinder_partial and C169_plane_partial, concrete case: a track of radius 1024 mm through the origin, a cylinder of radius 30 cm around the z axis and the plane
x = 20 cm are in range. -/
example (h : NearestF 53 1074 fl) : ∃ ts om', FloatState ts ∧ StateIs ts (1 / 2 ^ 10) 1 0 0 0 0 0 0 ∧ (Rnd.Dbg.parameters fl ts).hp = hpR om' 1 0 0 0 ∧
    (Rnd.Dbg.parameters fl ts).rp = V3.re 0 0 0 ∧ CylRange 30 om' 0 0 0 0 0 0 30 ∧ PlaneRange 30 0 0 0 1 0 20 0 ∧ 1 / 2 ^ 90 ≤ |om'| ∧ |om'| ≤ 2 ^ 90 ∧
    11 / 10 ^ 10 + 1 / 2 ^ 42 * (30 + 1 / |om'|) ^ 2 < |clDisc (rCx om' 0 0 0) (rCy om' 0 0 0) (1 / |om'|) 1 0 (20 * 1 + 0 * 0)| := by
  have hs : StateIs ⟨3, fin 0, fin 0, fin (1 / 2 ^ 10), fin 0, fin 1, [], V3.re 0 0 0⟩ (1 / 2 ^ 10) 1 0 0 0 0 0 0 := ⟨rfl, rfl, rfl, rfl, rfl, rfl⟩
  have hf : FloatState ⟨3, fin 0, fin 0, fin (1 / 2 ^ 10), fin 0, fin 1, [], V3.re 0 0 0⟩ := by
    constructor
    have k0 := isFloat_dyadic 0 0 (by norm_num) (by norm_num)
    have k1 := isFloat_dyadic 1 0 (by norm_num) (by norm_num)
    have k5 := isFloat_dyadic 1 10 (by norm_num) (by norm_num)
    rw [pow_zero, div_one] at k0 k1
    push_cast at k0 k1 k5
    intro a ha
    simp only [V3.re, List.mem_cons, List.not_mem_nil, or_false] at ha
    rcases ha with rfl | rfl | rfl | rfl | rfl | rfl | rfl | rfl <;> assumption
  obtain ⟨om', d', z', rx', ry', rz', e1, e2, b1, b2, b3, b4, b5, b6⟩ := C169_read h hf hs
  have z0 : ∀ {r : ℝ}, ReadAs r 0 → r = 0 := fun {r} q => by
    have : |10 * r - 0| ≤ 8 / 2 ^ 53 * |(0 : ℝ)| := q
    rw [abs_zero, mul_zero, sub_zero] at this
    linarith [abs_nonpos_iff.1 this]
  obtain rfl := z0 b2
  obtain rfl := z0 b3
  obtain rfl := z0 b4
  obtain rfl := z0 b5
  obtain rfl := z0 b6
  obtain ⟨l1, l2⟩ : 1 / 103 ≤ om' ∧ om' ≤ 1 / 102 := by
    have := abs_le.1 b1
    norm_num at this
    constructor <;> linarith [this.1, this.2]
  have p : 0 < om' := by linarith
  refine ⟨_, om', hf, hs, e1, e2, ⟨by norm_num, by norm_num, ?_, by norm_num, by norm_num, by norm_num, by norm_num, by norm_num, by norm_num, by norm_num, ?_⟩,
    ⟨by norm_num, by norm_num, by norm_num, by norm_num, by norm_num, by norm_num, by norm_num, by norm_num, by norm_num, by norm_num⟩, ?_, ?_, ?_⟩
  · rw [abs_of_pos p]; norm_num; linarith
  · rw [abs_of_pos p]
    simp only [Real.sin_zero, Real.cos_zero]
    norm_num
    linarith
  · rw [abs_of_pos p]; norm_num; linarith
  · rw [abs_of_pos p]; norm_num; linarith
  · have q1 : 1 / om' ≤ 103 := by rw [div_le_iff₀ p]; linarith
    have q2 : 102 ≤ 1 / om' := by rw [le_div_iff₀ p]; linarith
    rw [abs_of_pos p, clDisc, rCx, rCy, Real.sin_zero, Real.cos_zero]
    generalize 1 / om' = R at *
    norm_num
    rw [abs_of_pos (by nlinarith)]
    nlinarith

end Verif
