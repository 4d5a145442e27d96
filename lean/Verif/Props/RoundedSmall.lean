import Verif.Model.RoundedSmall
import Verif.Props.RoundedTrajectory
import Verif.Props.SmallPrograms

/-!
# C172: the program intersection_calculator in double precision
-/

open Classical

noncomputable section

namespace Verif

open Dbl Rnd Spec SmallPrograms

variable {fl : ℝ → ℝ} {lm : Libm} {at2 : ℝ → ℝ → ℝ} {asn atn : ℝ → ℝ}

/-- the track of the program with the decimal numbers of the source: curvature 0.23/cm, slope 0.01, azimuth 1.57, from the origin -/
def CalcHelix (x y w : ℝ → ℝ) : Prop := IsTrack 0.23 0.01 1.57 0 0 0 x y w

/-- the track crosses the disk within its bounds at path length `t` in the first half turn -/
def CrossesDisk (x y w : ℝ → ℝ) (surf : Surface) (t : ℝ) : Prop :=
  0 < t ∧ t < Real.pi / 0.23 ∧ (∃ ox oy, surf.origin = V3.re ox oy (w t)) ∧ surf.insideBounds (V3.re (x t) (y t) (w t)) = true

/-- a disk that the track reaches at path length `t` (behind the start if negative); not at the start, not after exactly half a turn and
not at the edge of the disk -/
structure ClearDisk (x y w : ℝ → ℝ) (surf : Surface) (t : ℝ) : Prop where
  noCylinder : surf.type.isZCylinder = false
  noPlane : surf.type.isZPlane = false
  disk : surf.type.isZDisk = true
  origin : ∃ ox oy, surf.origin = V3.re ox oy (w t)
  start : 1 / 2 ^ 400 ≤ |t|
  size : |t| ≤ 2 ^ 190
  turn : 1 / 10 ^ 13 ≤ |t - Real.pi / 0.23|
  edge : 0 < t → t < Real.pi / 0.23 → ∀ X Y, |X - x t| ≤ 1 / 10 ^ 12 → |Y - y t| ≤ 1 / 10 ^ 12 →
    surf.insideBounds (V3.re X Y (w t)) = surf.insideBounds (V3.re (x t) (y t) (w t))

theorem lit_near (h : NearestF 53 1074 fl) {x : ℝ} (hx : |x| ≤ 4) (hx' : 1 / 200 ≤ |x|) : lit fl x = fin (fl x) ∧ |fl x - x| ≤ 101 / 100 / 2 ^ 53 * |x| := by
  refine ⟨rnd_double h (le_trans hx (le_trans (by norm_num) (pow_le_pow_right₀ (a := (2 : ℝ)) (by norm_num) (show 2 ≤ 1000 by norm_num)))), ?_⟩
  refine (err_double h x).trans ?_
  have t : (1 : ℝ) / 2 ^ 1075 ≤ 1 / 2 ^ 100 := one_div_le_one_div_of_le (by positivity) (pow_le_pow_right₀ (by norm_num) (by norm_num))
  generalize (1 : ℝ) / 2 ^ 1075 = η at *
  norm_num at *
  linarith

theorem lit_bounds (h : NearestF 53 1074 fl) : Rnd.calcTrack fl = ⟨M5.zero, hpR (fl 0.23) (fl 0.01) (fl 1.57) 0 0, V3.re 0 0 0⟩ ∧
    |fl 0.23 - 0.23| ≤ 101 / 100 / 2 ^ 53 * 0.23 ∧ |fl 0.01 - 0.01| ≤ 101 / 100 / 2 ^ 53 * 0.01 ∧ |fl 1.57 - 1.57| ≤ 101 / 100 / 2 ^ 53 * 1.57 := by
  obtain ⟨a1, b1⟩ := lit_near h (x := 0.23) (by norm_num) (by norm_num)
  obtain ⟨a2, b2⟩ := lit_near h (x := 0.01) (by norm_num) (by norm_num)
  obtain ⟨a3, b3⟩ := lit_near h (x := 1.57) (by norm_num) (by norm_num)
  rw [abs_of_pos (by norm_num : (0 : ℝ) < 0.23)] at b1
  rw [abs_of_pos (by norm_num : (0 : ℝ) < 0.01)] at b2
  rw [abs_of_pos (by norm_num : (0 : ℝ) < 1.57)] at b3
  refine ⟨?_, b1, b2, b3⟩
  rw [Rnd.calcTrack, a1, a2, a3]
  simp only [TP.default, TP.setHp, hpR, V3.zero, V3.re, zero_eq]

/-- two tracks with almost the same curvature and direction -/
theorem tracks_near {om om' ph ph' tl tl' : ℝ} {x y w x' y' w' : ℝ → ℝ} (ht : IsTrack om tl ph 0 0 0 x y w) (ht' : IsTrack om' tl' ph' 0 0 0 x' y' w') (s : ℝ) :
    |x' s - x s| ≤ (|ph' - ph| + |om' - om| * |s|) * |s| ∧ |y' s - y s| ≤ (|ph' - ph| + |om' - om| * |s|) * |s| := by
  have key : ∀ {f g f' g' : ℝ → ℝ} {C : ℝ}, (∀ r, HasDerivAt f (f' r) r) → (∀ r, HasDerivAt g (g' r) r) → f 0 = 0 → g 0 = 0 →
      (∀ r, |r| ≤ |s| → |f' r - g' r| ≤ C) → |f s - g s| ≤ C * |s| := by
    intro f g f' g' C hf hg f0 g0 hb
    have := Convex.norm_image_sub_le_of_norm_hasDerivWithin_le (f := fun r => f r - g r) (C := C) (s := Set.Icc (-|s|) |s|) (x := 0) (y := s)
      (fun r _ => ((hf r).sub (hg r)).hasDerivWithinAt) (fun r hr => by
        rw [Real.norm_eq_abs]
        exact hb r (abs_le.2 hr)) (convex_Icc _ _)
      ⟨by simp, abs_nonneg s⟩ (abs_le.1 le_rfl)
    rwa [Real.norm_eq_abs, Real.norm_eq_abs, f0, g0, sub_zero, sub_zero, sub_zero] at this
  have ang : ∀ r, |r| ≤ |s| → |ph' - om' * r - (ph - om * r)| ≤ |ph' - ph| + |om' - om| * |s| := by
    intro r hr
    rw [show ph' - om' * r - (ph - om * r) = (ph' - ph) - (om' - om) * r by ring]
    refine (abs_sub _ _).trans ?_
    rw [abs_mul]
    have := mul_le_mul_of_nonneg_left hr (abs_nonneg (om' - om))
    linarith
  exact ⟨key ht'.vel_x ht.vel_x ht'.start_x ht.start_x fun r hr => (Real.abs_cos_sub_cos_le _ _).trans (ang r hr),
    key ht'.vel_y ht.vel_y ht'.start_y ht.start_y fun r hr => (Real.abs_sin_sub_sin_le _ _).trans (ang r hr)⟩

theorem calc_w {x y w : ℝ → ℝ} (ht : CalcHelix x y w) (t : ℝ) : w t = 0.01 * t := by
  obtain ⟨-, -, u⟩ := IsTrack.unique ht (show IsTrack 0.23 0.01 1.57 0 0 0 _ _ _ by
    have := isTrack_r (om := 0.23) (tl := 0.01) (ph := 1.57) (d := 0) (z := 0) (rx := 0) (ry := 0) (rz := 0) (by norm_num)
    simpa using this)
  rw [u, rZ]
  ring

/-- the crossing with one disk -/
theorem calc_disk (h : NearestF 53 1074 fl) (hl : IsLibm lm) {x y w : ℝ → ℝ} (ht : CalcHelix x y w) {surf : Surface} {t : ℝ} (hc : ClearDisk x y w surf t) :
    ∃ S X Y, (∃ f, Rnd.intersectWithSurface fl lm at2 asn atn surf (Rnd.calcTrack fl).hp (Rnd.calcTrack fl).rp 0 V3.zero 1 true = .ok ⟨f, fin S, V3.re X Y (w t)⟩ ∧
        (f = true ↔ 0 < S ∧ surf.insideBounds (V3.re X Y (w t)) = true)) ∧
      |S - t| ≤ 5 / 2 ^ 53 * |t| ∧ (|t| ≤ 14 → |X - x t| ≤ 1 / 10 ^ 12 ∧ |Y - y t| ≤ 1 / 10 ^ 12) := by
  obtain ⟨eT, bo, ba, bp⟩ := lit_bounds h
  rw [eT]
  obtain ⟨ox, oy, ho⟩ := hc.origin
  have ew := calc_w ht t
  rw [ew] at ho ⊢
  have e4 : ∀ {a : ℝ}, |a| ≤ 2 ^ 9 → |a| ≤ 2 ^ 200 := fun h => size_mono h (by norm_num)
  have st := hc.start
  have sz := hc.size
  have bo' := abs_le.1 bo
  have ba' := abs_le.1 ba
  have bp' := abs_le.1 bp
  generalize fl 0.23 = om at *
  generalize fl 0.01 = a at *
  generalize fl 1.57 = p at *
  norm_num at bo' ba' bp'
  have a0 : 0 < a := by linarith
  have om0 : 0 < om := by linarith
  have tz : |(0.01 : ℝ) * t| ≤ |t| := by
    rw [abs_mul, abs_of_pos (by norm_num : (0 : ℝ) < 0.01)]
    have := abs_nonneg t
    norm_num
    linarith
  have hr : HelixRange om a p 0 0 0 0 0 (0.01 * t) := by
    refine ⟨?_, e4 ?_, e4 ?_, e4 ?_, e4 (by norm_num), e4 (by norm_num), e4 (by norm_num), e4 (by norm_num), e4 (by norm_num), ?_⟩
    · rw [abs_of_pos om0]
      refine le_trans (one_div_le_one_div_of_le (by positivity) (pow_le_pow_right₀ (by norm_num) (by norm_num : 4 ≤ 500))) ?_
      norm_num
      linarith
    · rw [abs_of_pos om0]; norm_num; linarith
    · rw [abs_of_pos a0]; norm_num; linarith
    · rw [abs_of_pos (by linarith)]; norm_num; linarith
    · exact tz.trans (size_mono sz (by norm_num))
  have ht' := isTrack_r (om := om) (tl := a) (ph := p) (d := 0) (z := 0) (rx := 0) (ry := 0) (rz := 0) om0.ne'
  obtain ⟨S, X, Y, e1, e2, e3, e5, e6, e7⟩ := C133_disk h hl hr (by
    rw [abs_of_pos a0]
    refine le_trans (one_div_le_one_div_of_le (by positivity) (pow_le_pow_right₀ (by norm_num) (by norm_num : 10 ≤ 90))) ?_
    norm_num
    linarith) ho 1 true ht'
  refine ⟨S, X, Y, ?_, ?_⟩
  · obtain ⟨-, -, D, -⟩ := C144_dispatch fl lm at2 asn atn surf (hpR om a p 0 0) (V3.re 0 0 0) 0 V3.zero 1 true
    refine ⟨(Rnd.intersectWithZDisk fl lm surf (hpR om a p 0 0) (V3.re 0 0 0) 1 true).found, ?_, ?_⟩
    · show Rnd.intersectWithSurface fl lm at2 asn atn surf (hpR om a p 0 0) (V3.re 0 0 0) 0 V3.zero 1 true = _
      rw [D hc.noCylinder hc.noPlane hc.disk, ← e1, ← e2]
    · rw [e7]
      simp
  have es : |S - t| ≤ 5 / 2 ^ 53 * |t| := by
    have tiny : (1 : ℝ) / 2 ^ 500 ≤ 1 / 2 ^ 100 * |t| := by
      refine le_trans ?_ (mul_le_mul_of_nonneg_left st (by positivity))
      rw [one_div_mul_one_div, ← pow_add]
    rw [rZ, add_zero, zero_add, _root_.abs_zero, abs_mul, abs_of_pos (by norm_num : (0 : ℝ) < 0.01)] at e3
    have q1 : |(0.01 - a) * t| ≤ 101 / 100 / 2 ^ 53 * 0.01 * |t| := by
      rw [abs_mul, abs_sub_comm]
      exact mul_le_mul_of_nonneg_right ba (abs_nonneg t)
    have q2 : a * |S - t| ≤ 1 / 2 ^ 53 * (3 * (0.01 * |t|) + 4 * 0) + 1 / 2 ^ 500 + 101 / 100 / 2 ^ 53 * 0.01 * |t| := by
      rw [show a * |S - t| = |a * (S - t)| by rw [abs_mul, abs_of_pos a0], show a * (S - t) = (S * a - 0.01 * t) + (0.01 - a) * t by ring]
      exact (abs_add_le _ _).trans (add_le_add e3 q1)
    have q3 : 0.0099 * |S - t| ≤ a * |S - t| := mul_le_mul_of_nonneg_right (by norm_num; linarith) (abs_nonneg _)
    have t0 := abs_nonneg t
    generalize (1 : ℝ) / 2 ^ 500 = η at *
    generalize |S - t| = D at *
    norm_num at *
    linarith
  refine ⟨es, fun t14 => ?_⟩
  have s14 : |S| ≤ 141 / 10 := by
    have := abs_sub_abs_le_abs_sub S t
    have t0 := abs_nonneg t
    norm_num at es ⊢
    linarith
  have tiny : (1 : ℝ) / 2 ^ 500 ≤ 1 / 2 ^ 60 := one_div_le_one_div_of_le (by positivity) (pow_le_pow_right₀ (by norm_num) (by norm_num))
  have tr := tracks_near ht (show IsTrack om a p 0 0 0 _ _ _ by simpa using ht') S
  have lip := track_lip ht S t
  have s0 := abs_nonneg S
  have big : (|p - 1.57| + |om - 0.23| * |S|) * |S| ≤ (2 / 2 ^ 53 + 1 / 2 ^ 53 * 15) * 15 := by
    refine mul_le_mul ?_ (by linarith) s0 (by positivity)
    have : |om - 0.23| * |S| ≤ 1 / 2 ^ 53 * 15 := mul_le_mul (bo.trans (by norm_num)) (by linarith) s0 (by positivity)
    norm_num at bp this ⊢
    linarith
  have mid : |S| * (30 + |p| + 3 * |om * S|) ≤ 15 * (30 + 2 + 3 * 5) := by
    have k1 : |p| ≤ 2 := by rw [abs_of_pos (by linarith)]; linarith
    have k2 : |om * S| ≤ 5 := by
      rw [abs_mul, abs_of_pos om0]
      have : om * |S| ≤ 0.3 * 15 := mul_le_mul (by norm_num; linarith) (by linarith) s0 (by norm_num)
      norm_num at this ⊢
      linarith
    exact mul_le_mul (by linarith) (by linarith) (by positivity) (by norm_num)
  have fin' : ∀ {U V W Q : ℝ}, |U - V| ≤ 1 / 2 ^ 53 * (3 * |(0 : ℝ)| + 10 * |(0 : ℝ)| + |S| * (30 + |p| + 3 * |om * S|)) + 1 / 2 ^ 500 →
      |V - W| ≤ (|p - 1.57| + |om - 0.23| * |S|) * |S| → |W - Q| ≤ |S - t| → |U - Q| ≤ 1 / 10 ^ 12 := by
    intro U V W Q k1 k2 k3
    have k := abs_add_three (U - V) (V - W) (W - Q)
    rw [show U - V + (V - W) + (W - Q) = U - Q by ring] at k
    rw [_root_.abs_zero] at k1
    generalize (1 : ℝ) / 2 ^ 500 = η at *
    generalize |S| * (30 + |p| + 3 * |om * S|) = m1 at *
    generalize (|p - 1.57| + |om - 0.23| * |S|) * |S| = m2 at *
    clear e3 e5 e6 e7 tr lip bo ba bp st sz tz
    norm_num at *
    linarith
  exact ⟨fin' e5 tr.1 lip.1, fin' e6 tr.2 lip.2⟩

/-- the loop over the surfaces -/
theorem calc_loop (h : NearestF 53 1074 fl) (hl : IsLibm lm) {x y w : ℝ → ℝ} (ht : CalcHelix x y w) {m : ℝ} (hm : |m - Real.pi / 0.23| ≤ 2 / 10 ^ 14)
    (surfaces : List Surface) (hs : ∀ surf ∈ surfaces, ∃ t, ClearDisk x y w surf t) (l : List (Dbl × Surface)) :
    ∃ l', Rnd.intersectionLoop fl lm at2 asn atn (Rnd.calcTrack fl) (fin m) l surfaces = (l ++ l', .ok ()) ∧
      l'.map Prod.snd = surfaces.filter (fun surf => decide (∃ t, CrossesDisk x y w surf t)) ∧
      ∀ e ∈ l', ∃ S t, e.1 = fin S ∧ CrossesDisk x y w e.2 t ∧ |S - t| ≤ 5 / 2 ^ 53 * t := by
  induction surfaces generalizing l with
  | nil => exact ⟨[], by simp [Rnd.intersectionLoop], by simp, by simp⟩
  | cons surf surfaces ih =>
    have ih' := ih fun s' h' => hs s' (List.mem_cons_of_mem _ h')
    obtain ⟨t, hc⟩ := hs surf (List.mem_cons_self ..)
    obtain ⟨S, X, Y, ⟨f, e1, e2⟩, e3, e4⟩ := calc_disk (at2 := at2) (asn := asn) (atn := atn) h hl ht hc
    have p1 := Real.pi_gt_d2
    have p2 := Real.pi_lt_d2
    have hm' := abs_le.1 hm
    have e3' := abs_le.1 e3
    have tt : |t| ≤ 20 ∨ 20 < |t| := le_or_gt _ _
    have st : 0 < |t| := lt_of_lt_of_le (by positivity) hc.start
    have pos : 0 < S ↔ 0 < t := by
      rcases lt_or_gt_of_ne (abs_pos.1 st) with q | q
      · rw [abs_of_neg q] at e3'
        norm_num at e3'
        constructor <;> intro k <;> linarith
      · rw [abs_of_pos q] at e3'
        norm_num at e3'
        constructor <;> intro k <;> linarith
    have up : 0 < t → (S < m ↔ t < Real.pi / 0.23) := by
      intro q
      rw [abs_of_pos q] at e3'
      have tu := hc.turn
      rcases le_abs.1 tu with k | k <;> norm_num at e3' hm' k p1 p2 ⊢ <;> constructor <;> intro k' <;> linarith
    have uniq : ∀ t', CrossesDisk x y w surf t' → t' = t := by
      intro t' q
      obtain ⟨ox, oy, k1⟩ := q.2.2.1
      obtain ⟨ox', oy', k2⟩ := hc.origin
      rw [k1] at k2
      have k3 := congrArg V3.z k2
      simp only [V3.re, fin_inj] at k3
      rw [calc_w ht, calc_w ht] at k3
      linarith
    rw [Rnd.intersectionLoop, e1]
    simp only
    by_cases hx : CrossesDisk x y w surf t
    · obtain ⟨k1, k2, k3, k4⟩ := id hx
      have t14 : |t| ≤ 14 := by
        rw [abs_of_pos k1]
        norm_num at k2 p2
        linarith
      obtain ⟨X1, Y1⟩ := e4 t14
      have ins : surf.insideBounds (V3.re X Y (w t)) = true := by rw [hc.edge k1 k2 X Y X1 Y1]; exact k4
      have S0 := pos.2 k1
      rw [cif_pos ⟨e2.2 ⟨S0, ins⟩, by rw [zero_eq, fin_le]; exact S0.le, by rw [fin_lt]; exact (up k1).2 k2⟩]
      obtain ⟨l', i1, i2, i3⟩ := ih' (l ++ [(fin S, surf)])
      refine ⟨(fin S, surf) :: l', by rw [i1]; simp, ?_, ?_⟩
      · rw [List.map_cons, i2, List.filter_cons_of_pos (p := fun surf => decide (∃ t, CrossesDisk x y w surf t)) (decide_eq_true ⟨t, hx⟩)]
      · intro e he
        rcases List.mem_cons.1 he with rfl | he
        · exact ⟨S, t, rfl, hx, by rwa [abs_of_pos k1] at e3⟩
        · exact i3 e he
    · have no : ¬ (f = true ∧ (0 : Dbl) ≤ fin S ∧ fin S < fin m) := by
        rintro ⟨q1, -, q3⟩
        obtain ⟨q4, q5⟩ := e2.1 q1
        have k1 := pos.1 q4
        rw [fin_lt] at q3
        have k2 := (up k1).1 q3
        have t14 : |t| ≤ 14 := by
          rw [abs_of_pos k1]
          norm_num at k2 p2
          linarith
        obtain ⟨X1, Y1⟩ := e4 t14
        exact hx ⟨k1, k2, hc.origin, by rw [← hc.edge k1 k2 X Y X1 Y1]; exact q5⟩
      rw [cif_neg no]
      obtain ⟨l', i1, i2, i3⟩ := ih' l
      refine ⟨l', i1, ?_, i3⟩
      rw [i2, List.filter_cons_of_neg]
      simp only [decide_eq_true_eq, not_exists]
      intro t' q
      exact hx (uniq t' q ▸ q)

/-- C172 (partial): for a geometry of disks the program prints exactly those that the track with the decimal numbers of the source crosses
within their bounds in the first half turn, each as often as it is in the geometry, in the order of the path lengths, and these are right
up to 5 units of 2^-53.  Missing for C172: that this is the geometry in the file (`C172_false`); for cylinders see
`C172_barrel_partial`, for other surfaces C148. -/
theorem C172_disks_partial (h : NearestF 53 1074 fl) (hl : IsLibm lm) {sort : List (Dbl × Surface) → List (Dbl × Surface)}
    (hsort : IsStdSort Traj.sortWithS sort) {x y w : ℝ → ℝ} (ht : CalcHelix x y w) {dd : Dd4hep} {surfaces : List Surface}
    (hu : dd.unloaded = some surfaces) (hs : ∀ surf ∈ surfaces, ∃ t, ClearDisk x y w surf t) (f : String) (more : List String) :
    ∃ l, Rnd.intersectionCalculator fl lm at2 asn atn dd sort (f :: more) = .ok (0, l) ∧
      (l.map Prod.snd).Perm (surfaces.filter (fun surf => decide (∃ t, CrossesDisk x y w surf t))) ∧ l.Pairwise (fun a b => ¬ b.1 < a.1) ∧
      ∀ e ∈ l, ∃ S t, e.1 = fin S ∧ CrossesDisk x y w e.2 t ∧ |S - t| ≤ 5 / 2 ^ 53 * t := by
  obtain ⟨eT, bo, -, -⟩ := lit_bounds h
  have bo' := abs_le.1 bo
  norm_num at bo'
  have om0 : 0 < fl 0.23 := by linarith
  obtain ⟨m, em, hm⟩ := maxArc_value (om := fl 0.23) (tl := fl 0.01) (ph := fl 1.57) (d := 0) (z := 0) h (by
    rw [abs_of_pos om0]
    refine le_trans (one_div_le_one_div_of_le (by positivity) (pow_le_pow_right₀ (by norm_num) (by norm_num : 4 ≤ 500))) ?_
    norm_num
    linarith) (by
    rw [abs_of_pos om0]
    refine le_trans ?_ (pow_le_pow_right₀ (a := (2 : ℝ)) (by norm_num) (show 1 ≤ 200 by norm_num))
    norm_num
    linarith)
  have hm' : |m - Real.pi / 0.23| ≤ 2 / 10 ^ 14 := by
    have p1 := Real.pi_gt_d2
    have p2 := Real.pi_lt_d2
    rw [abs_of_pos om0] at hm
    have k1 : Real.pi / fl 0.23 ≤ 14 := by
      rw [div_le_iff₀ om0]
      linarith
    have k2 : |Real.pi / fl 0.23 - Real.pi / 0.23| ≤ 3 / 10 ^ 15 := by
      have e : Real.pi / fl 0.23 - Real.pi / 0.23 = Real.pi / fl 0.23 * (0.23 - fl 0.23) / 0.23 := by
        field_simp
      rw [e, abs_div, abs_mul, abs_of_pos (by positivity : 0 < Real.pi / fl 0.23), abs_sub_comm, abs_of_pos (by norm_num : (0 : ℝ) < 0.23), div_le_iff₀ (by norm_num)]
      have := mul_le_mul k1 bo (abs_nonneg _) (by norm_num)
      norm_num at this ⊢
      linarith
    have k := abs_add_le (m - Real.pi / fl 0.23) (Real.pi / fl 0.23 - Real.pi / 0.23)
    rw [sub_add_sub_cancel] at k
    norm_num at hm k1 k2 k ⊢
    linarith
  obtain ⟨l0, i1, i2, i3⟩ := calc_loop (at2 := at2) (asn := asn) (atn := atn) h hl ht hm' surfaces hs []
  rw [List.nil_append] at i1
  have hsw : StrictWeakOn Traj.sortWithS l0 := by
    refine strictWeakOn_key Traj.sortWithS (fun x => finVal x.1) l0 ?_
    intro a ha b hb
    obtain ⟨x, -, hx, -⟩ := i3 a ha
    obtain ⟨y, -, hy, -⟩ := i3 b hb
    simp only [Traj.sortWithS, hx, hy, fin_lt, finVal]
  have hst : stdSort sort Traj.sortWithS l0 = .ok (sort l0) := by unfold stdSort; rw [if_pos hsw]
  obtain ⟨p1, p2⟩ := stdSort_ok hsort hst
  refine ⟨sort l0, ?_, ?_, p2, fun e he => i3 e (p1.mem_iff.1 he)⟩
  · have em' : Rnd.maxArc fl (Rnd.calcTrack fl).hp = fin m := by rw [eT]; exact em
    have r : (Traj.make (Rnd.calcTrack fl)).ref = Rnd.calcTrack fl := rfl
    have r' : (Traj.make (Rnd.calcTrack fl)).inters = [] := rfl
    simp only [Rnd.intersectionCalculator, hu, Rnd.getIntersections, r, r', em', i1, hst]
    rfl
  · rw [← i2]
    exact p1.map _

/-- C172: without arguments the program prints nothing and returns 1; the output does not depend on the file. -/
theorem C172_file (dd : Dd4hep) (load : String → Option (List Surface)) (sort : List (Dbl × Surface) → List (Dbl × Surface))
    (f f' : String) (more more' : List String) :
    Rnd.intersectionCalculator fl lm at2 asn atn dd sort [] = .ok (1, []) ∧
    Rnd.intersectionCalculator fl lm at2 asn atn dd sort (f :: more) =
      Rnd.intersectionCalculator fl lm at2 asn atn { dd with load := load } sort (f' :: more') := ⟨rfl, rfl⟩

theorem calcHelix_exists : ∃ x y w, CalcHelix x y w :=
  ⟨_, _, _, by simpa [CalcHelix] using isTrack_r (om := 0.23) (tl := 0.01) (ph := 1.57) (d := 0) (z := 0) (rx := 0) (ry := 0) (rz := 0) (by norm_num)⟩

/-- the disk at z = 0.01 cm -/
def calcDisk : Surface := { Example.disk with origin := V3.re 0 0 0.01 }

/-- it is reached after 1 cm -/
theorem clear_example {x y w : ℝ → ℝ} (ht : CalcHelix x y w) : ClearDisk x y w calcDisk 1 ∧
    CrossesDisk x y w calcDisk 1 := by
  have p1 := Real.pi_gt_three
  have e : w 1 = 0.01 := by rw [calc_w ht, mul_one]
  refine ⟨⟨by decide, by decide, by decide, ⟨0, 0, by rw [e]; rfl⟩, ?_, ?_, ?_, fun _ _ X Y _ _ => rfl⟩, one_pos, ?_, ⟨0, 0, by rw [e]; rfl⟩, rfl⟩
  · rw [abs_one]
    exact (div_le_one (by positivity)).2 (one_le_pow₀ (by norm_num))
  · rw [abs_one]
    exact one_le_pow₀ (by norm_num)
  · rw [abs_sub_comm, abs_of_pos] <;> norm_num <;> linarith
  · norm_num
    linarith

/-- C172 is false as stated: the file describes a detector with a disk that the track crosses, and nothing is printed; with this geometry
the line of the disk would be printed. -/
theorem C172_false (h : NearestF 53 1074 fl) (hl : IsLibm lm) {sort : List (Dbl × Surface) → List (Dbl × Surface)}
    (hsort : IsStdSort Traj.sortWithS sort) {x y w : ℝ → ℝ} (ht : CalcHelix x y w) :
    ∃ (dd : Dd4hep) (f : String) (surf : Surface) (S t : ℝ), dd.load f = some [surf] ∧ CrossesDisk x y w surf t ∧ |S - t| ≤ 5 / 2 ^ 53 * t ∧
      Rnd.intersectionCalculator fl lm at2 asn atn dd sort [f] = .ok (0, []) ∧
      Rnd.intersectionCalculator fl lm at2 asn atn { dd with unloaded := dd.load f } sort [f] = .ok (0, [(fin S, surf)]) := by
  obtain ⟨c1, c2⟩ := clear_example ht
  obtain ⟨l, e1, e2, -, -⟩ := C172_disks_partial (at2 := at2) (asn := asn) (atn := atn) h hl hsort ht
    (dd := ⟨fun _ => some [calcDisk], some []⟩) (surfaces := []) rfl (by simp) "" []
  obtain ⟨l', f1, f2, -, f4⟩ := C172_disks_partial (at2 := at2) (asn := asn) (atn := atn) h hl hsort ht
    (dd := ⟨fun _ => some [calcDisk], some [calcDisk]⟩)
    (surfaces := [calcDisk]) rfl
    (fun s hs => ⟨1, by rw [List.mem_singleton] at hs; rw [hs]; exact c1⟩) "" []
  have hl0 : l = [] := by simpa using e2
  rw [List.filter_cons_of_pos (p := fun surf => decide (∃ t, CrossesDisk x y w surf t)) (decide_eq_true ⟨1, c2⟩), List.filter_nil, List.perm_singleton] at f2
  obtain ⟨⟨a, b⟩, rfl⟩ : ∃ e, l' = [e] := by
    have := congrArg List.length f2
    rw [List.length_map, List.length_singleton] at this
    exact List.length_eq_one_iff.1 this
  simp only [List.map_cons, List.map_nil, List.cons.injEq, and_true] at f2
  subst f2
  obtain ⟨S, t, g1, g2, g3⟩ := f4 _ (List.mem_singleton.2 rfl)
  simp only at g1 g2
  subst g1
  subst hl0
  exact ⟨_, "", _, S, t, rfl, g2, g3, e1, f1⟩

end Verif
