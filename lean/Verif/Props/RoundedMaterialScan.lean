import Verif.Lemmas.RoundedMaterialScan
import Verif.Props.MaterialScan
import Verif.Props.RoundedTrajectory

/-!
# C163: material along a direction in double precision
-/

open Classical

noncomputable section

namespace Verif

open Dbl Rnd Spec Rounded MatScan

variable {fl : ℝ → ℝ} {lm : Libm} {at2 : ℝ → ℝ → ℝ} {asn atn tn : ℝ → ℝ}

namespace Spec

/-- an angle in degrees -/
def deg (t : ℝ) : ℝ := t / 180 * Real.pi

/-- the component of a vector along the direction with the polar angle `θ` and the azimuth `φ` -/
def alongDir (θ φ n1 n2 n3 : ℝ) : ℝ := Real.sin θ * Real.cos φ * n1 + Real.sin θ * Real.sin φ * n2 + Real.cos θ * n3

/-- `X` is the path through the two layers of a surface along a direction in units of their radiation lengths; the thicknesses are zero or
between 2^-100 and 2^100, the radiation lengths between 2^-100 and 2^100, the normal vector has a length of at most 1.001, and its component along
the direction is at least `c0`. -/
def LayersAt (θ φ c0 : ℝ) (surf : Surface) (xx : V3) (X : ℝ) : Prop :=
  ∃ ti tO Xi Xo n1 n2 n3 : ℝ, surf.innerThickness = fin ti ∧ surf.outerThickness = fin tO ∧ surf.innerMaterial.radLength = fin Xi ∧
    surf.outerMaterial.radLength = fin Xo ∧ surf.normal xx = V3.re n1 n2 n3 ∧ SizeOrZero ti ∧ SizeOrZero tO ∧ 0 < ti + tO ∧ Size Xi ∧ Size Xo ∧
    n1 ^ 2 + n2 ^ 2 + n3 ^ 2 ≤ (1001 / 1000) ^ 2 ∧ c0 ≤ |alongDir θ φ n1 n2 n3| ∧
    X = layerX0 ti Xi (alongDir θ φ n1 n2 n3) + layerX0 tO Xo (alongDir θ φ n1 n2 n3)

end Spec

/-- C163: the angles in radians. -/
theorem C163_angle (h : NearestF 53 1074 fl) {t : ℝ} (ht : |t| ≤ 720) : ∃ r, Rnd.radians fl (fin t) = fin r ∧ |r - deg t| ≤ 34 / 2 ^ 53 := by
  obtain ⟨r, _, e1, e2, e3, -⟩ := (radians_ap h ht).val
  injection e2 with e2
  subst e2
  exact ⟨r, e1, e3.trans (by rw [one_mul, mul_one_div])⟩

/-- C163: the direction. -/
theorem C163_direction (h : NearestF 53 1074 fl) (hl : IsLibm lm) {t p : ℝ} (ht : |t| ≤ 720) (hp : |p| ≤ 720) :
    ∃ px py pz : ℝ, Rnd.scanDirection fl lm (Rnd.radians fl (fin t)) (Rnd.radians fl (fin p)) = V3.re px py pz ∧
      |px - Real.sin (deg t) * Real.cos (deg p)| ≤ 77 / 2 ^ 53 ∧ |py - Real.sin (deg t) * Real.sin (deg p)| ≤ 77 / 2 ^ 53 ∧
      |pz - Real.cos (deg t)| ≤ 77 / 2 ^ 53 :=
  direction_ap h hl (radians_ap h ht) (radians_ap h hp)

/-- the value of a crossing -/
theorem value_rel (h : NearestF 53 1074 fl) (hl : IsLibm lm) {t p c0 X : ℝ} (ht : |t| ≤ 720) (hp : |p| ≤ 720) (hc : 1 / 2 ^ 19 ≤ c0) {surf : Surface} {xx : V3}
    (hL : LayersAt (deg t) (deg p) c0 surf xx X) :
    Rel 423 (Rnd.xX0 fl (Rnd.scanDirection fl lm (Rnd.radians fl (fin t)) (Rnd.radians fl (fin p))) surf xx) X (8 + 880 / c0) := by
  obtain ⟨ti, tO, Xi, Xo, n1, n2, n3, h1, h2, h3, h4, hn, z1, z2, z0, s1, s2, hN, hcc, rfl⟩ := hL
  obtain ⟨px, py, pz, e, ex, ey, ez⟩ := C163_direction h hl ht hp
  have unit : (Real.sin (deg t) * Real.cos (deg p)) ^ 2 + (Real.sin (deg t) * Real.sin (deg p)) ^ 2 + Real.cos (deg t) ^ 2 = 1 := by
    linear_combination Real.sin_sq_add_cos_sq (deg t) + Real.sin (deg t) ^ 2 * Real.sin_sq_add_cos_sq (deg p)
  obtain ⟨u1, u2⟩ := unit_near (nx := n1) (ny := n2) (nz := n3) unit hN ex ey ez (by norm_num)
  obtain ⟨c, hcd⟩ : ∃ c, c = |alongDir (deg t) (deg p) n1 n2 n3| := ⟨_, rfl⟩
  have c00 : 0 < c0 := lt_of_lt_of_le (by positivity) hc
  rw [← hcd] at hcc
  have c0' : 0 < c := lt_of_lt_of_le c00 hcc
  rw [show Real.sin (deg t) * Real.cos (deg p) * n1 + Real.sin (deg t) * Real.sin (deg p) * n2 + Real.cos (deg t) * n3 =
    alongDir (deg t) (deg p) n1 n2 n3 from rfl, ← hcd] at u2
  have lo : 1 / 2 ^ 20 ≤ crossingCos px py pz n1 n2 n3 := by
    have := (abs_le.1 u2).1
    have : (11 : ℝ) * (77 / 2 ^ 53) ≤ 1 / 2 ^ 20 := by norm_num
    have : (1 : ℝ) / 2 ^ 19 = 1 / 2 ^ 20 + 1 / 2 ^ 20 := by norm_num
    linarith
  have hP : Size (√(px ^ 2 + py ^ 2 + pz ^ 2)) := by
    have i := abs_le.1 u1
    have : (7 : ℝ) * (77 / 2 ^ 53) ≤ 1 / 2 := by norm_num
    have k1 : (1 : ℝ) / 2 ^ 100 ≤ 1 / 2 := by norm_num
    have k2 : (2 : ℝ) ≤ 2 ^ 100 := by norm_num
    exact ⟨by linarith, by linarith⟩
  have C := cos_rel h hP hN lo
  have cp := C.pos
  have chi := C.hi
  obtain ⟨r, r1, r2⟩ := C.val
  rw [show 27 / crossingCos px py pz n1 n2 n3 * (crossingCos px py pz n1 n2 n3 * (1 / 2 ^ 53)) = 27 / 2 ^ 53 by field_simp] at r2
  have R : Rel 20 (Dbl.abs (dotV fl (unitV fl (V3.re px py pz)) (V3.re n1 n2 n3))) c (874 / c) := by
    refine ⟨?_, ?_, r, r1, ?_⟩
    · have : (1 : ℝ) / 2 ^ 20 ≤ 1 / 2 ^ 19 := by norm_num
      linarith
    · have c2 : c ≤ 1001 / 1000 := by
        rw [hcd]
        refine abs_le_of_sq_le_sq ?_ (by norm_num)
        have : alongDir (deg t) (deg p) n1 n2 n3 ^ 2 ≤ ((Real.sin (deg t) * Real.cos (deg p)) ^ 2 + (Real.sin (deg t) * Real.sin (deg p)) ^ 2 +
            Real.cos (deg t) ^ 2) * (n1 ^ 2 + n2 ^ 2 + n3 ^ 2) := by
          rw [alongDir]
          generalize Real.sin (deg t) * Real.cos (deg p) = a
          generalize Real.sin (deg t) * Real.sin (deg p) = b
          generalize Real.cos (deg t) = d
          nlinarith [sq_nonneg (a * n2 - b * n1), sq_nonneg (a * n3 - d * n1), sq_nonneg (b * n3 - d * n2)]
        rw [unit, one_mul] at this
        exact this.trans hN
      exact c2.trans (by norm_num)
    · rw [show 874 / c * (c * (1 / 2 ^ 53)) = 874 / 2 ^ 53 by field_simp]
      refine (near_trans r2 u2).trans (by norm_num)
  have f1 : 874 / c ≤ 2 ^ 29 := by
    rw [div_le_iff₀ c0']
    have : (1 : ℝ) / 2 ^ 19 ≤ c := hc.trans hcc
    norm_num at this ⊢
    linarith
  have V := path_rel_of h z1 z2 z0 s1 s2 R f1
  have eX : layerX0 ti Xi (alongDir (deg t) (deg p) n1 n2 n3) + layerX0 tO Xo (alongDir (deg t) (deg p) n1 n2 n3) = (ti / Xi + tO / Xo) / c := by
    rw [layerX0, layerX0, ← hcd]
    ring
  have eV : Rnd.xX0 fl (Rnd.scanDirection fl lm (Rnd.radians fl (fin t)) (Rnd.radians fl (fin p))) surf xx =
      mulD fl (divD fl (addD fl (fin ti) (fin tO)) (Dbl.abs (dotV fl (unitV fl (V3.re px py pz)) (V3.re n1 n2 n3))))
      (divD fl (addD fl (divD fl (fin ti) (fin Xi)) (divD fl (fin tO) (fin Xo))) (addD fl (fin ti) (fin tO))) := by
    rw [e]
    simp only [Rnd.xX0, h1, h2, h3, h4, hn]
  rw [eV, eX]
  refine V.mono le_rfl ?_
  have i1 : 874 / c ≤ 874 / c0 := div_le_div_of_nonneg_left (by norm_num) c00 hcc
  have i2 : 880 / c0 = 874 / c0 * (880 / 874) := by field_simp
  have i3 : 0 < 874 / c0 := by positivity
  rw [i2]
  linarith

/-- C163: the value of a crossing is the path through both layers in units of their radiation lengths. -/
theorem C163_value (h : NearestF 53 1074 fl) (hl : IsLibm lm) {t p c0 X : ℝ} (ht : |t| ≤ 720) (hp : |p| ≤ 720) (hc : 1 / 2 ^ 19 ≤ c0) {surf : Surface}
    {xx : V3} (hL : LayersAt (deg t) (deg p) c0 surf xx X) :
    ∃ r, Rnd.xX0 fl (Rnd.scanDirection fl lm (Rnd.radians fl (fin t)) (Rnd.radians fl (fin p))) surf xx = fin r ∧
      |r - X| ≤ (8 + 880 / c0) / 2 ^ 53 * X := by
  obtain ⟨r, e1, e2⟩ := (value_rel h hl ht hp hc hL).val
  exact ⟨r, e1, e2.trans (le_of_eq (by ring))⟩

theorem scanD_ok {dir : V3} {tp : TP} : ∀ {l : List (Dbl × Surface)} {total : Dbl} {rows : List Row}, Rnd.scan fl lm at2 asn atn dir tp total l = .ok rows →
    rows.map (fun r => (r.s, r.surf)) = l ∧
    (∀ r ∈ rows, r.xX0 = Rnd.xX0 fl dir r.surf r.xx ∧
      ∃ h, Rnd.intersectWithSurface fl lm at2 asn atn r.surf tp.hp tp.rp 0 V3.zero 0 true = .ok h ∧ r.xx = h.xx) ∧
    ∀ k r, rows[k]? = some r → r.total = ((rows.take (k + 1)).map Row.xX0).foldl (addD fl) total := by
  intro l
  induction l with
  | nil =>
    intro total rows h
    simp only [Rnd.scan] at h
    injection h with h
    subst h
    simp
  | cons a l ih =>
    obtain ⟨s, surf⟩ := a
    intro total rows h
    simp only [Rnd.scan] at h
    obtain ⟨hit, e1, h⟩ := Out.bind_eq_ok.mp h
    obtain ⟨rest, e2, h⟩ := Out.bind_eq_ok.mp h
    rw [Out.pure_eq] at h
    injection h with h
    subst h
    obtain ⟨i1, i2, i3⟩ := ih e2
    refine ⟨by simp [i1], ?_, ?_⟩
    · intro r hr
      rcases List.mem_cons.mp hr with rfl | hr
      · exact ⟨rfl, hit, e1, rfl⟩
      · exact i2 r hr
    · intro k r hk
      cases k with
      | zero =>
        simp only [List.getElem?_cons_zero, Option.some.injEq] at hk
        subst hk
        simp
      | succ k =>
        rw [List.getElem?_cons_succ] at hk
        rw [i3 k r hk]
        simp

theorem runScan_ok {sort : List (Dbl × Surface) → List (Dbl × Surface)} {surfaces : List Surface} {omega t p : Dbl} {rows : List Row}
    (h : Rnd.runScan fl lm at2 asn atn tn sort surfaces omega t p = .ok rows) :
    ∃ T' l, Rnd.getIntersections fl lm at2 asn atn sort (Traj.make (Rnd.scanTrack fl tn omega (Rnd.radians fl t) (Rnd.radians fl p))) surfaces = (T', .ok l) ∧
      Rnd.scan fl lm at2 asn atn (Rnd.scanDirection fl lm (Rnd.radians fl t) (Rnd.radians fl p))
        (Rnd.scanTrack fl tn omega (Rnd.radians fl t) (Rnd.radians fl p)) 0 l = .ok rows := by
  unfold Rnd.runScan at h
  simp only at h
  obtain ⟨l, e1, h⟩ := Out.bind_eq_ok.mp h
  exact ⟨_, l, Prod.ext rfl e1, h⟩

/-- C163: there is one row per crossing of the list returned by `getIntersectionsWithSurfaces`, in its order; each row has the point found again for
the surface. -/
theorem C163_rows {sort : List (Dbl × Surface) → List (Dbl × Surface)} {surfaces : List Surface} {omega t p : Dbl} {rows : List Row}
    (h : Rnd.runScan fl lm at2 asn atn tn sort surfaces omega t p = .ok rows) :
    let tp := Rnd.scanTrack fl tn omega (Rnd.radians fl t) (Rnd.radians fl p)
    (Rnd.getIntersections fl lm at2 asn atn sort (Traj.make tp) surfaces).2 = .ok (rows.map (fun r => (r.s, r.surf))) ∧
    ∀ r ∈ rows, ∃ hit, Rnd.intersectWithSurface fl lm at2 asn atn r.surf tp.hp tp.rp 0 V3.zero 0 true = .ok hit ∧ r.xx = hit.xx := by
  intro tp
  obtain ⟨T', l, e1, e2⟩ := runScan_ok h
  obtain ⟨i1, i2, -⟩ := scanD_ok e2
  exact ⟨by rw [i1, e1], fun r hr => (i2 r hr).2⟩

/-- C163 (partial): the total of a row is the sum over the surfaces crossed so far of the path through their layers in units of the radiation
lengths, up to a relative error of (8 + 880/c0 + 2 n) / 2^53, with the number n of surfaces and the smallest cosine c0.  Missing: surfaces without
thickness (C163_thin_false). -/
theorem C163_total_partial (h : NearestF 53 1074 fl) (hl : IsLibm lm) {sort : List (Dbl × Surface) → List (Dbl × Surface)} {surfaces : List Surface}
    {omega : Dbl} {t p c0 : ℝ} (ht : |t| ≤ 720) (hp : |p| ≤ 720) (hc : 1 / 2 ^ 19 ≤ c0) {rows : List Row}
    (hr : Rnd.runScan fl lm at2 asn atn tn sort surfaces omega (fin t) (fin p) = .ok rows) {k : ℕ} {r : Row} (hk : rows[k]? = some r)
    (hk' : k < 2 ^ 20) {X : Row → ℝ} (hX : ∀ q ∈ rows.take (k + 1), LayersAt (deg t) (deg p) c0 q.surf q.xx (X q)) :
    ∃ T, r.total = fin T ∧ |T - ((rows.take (k + 1)).map X).sum| ≤ (8 + 880 / c0 + 2 * (k + 1)) / 2 ^ 53 * ((rows.take (k + 1)).map X).sum := by
  obtain ⟨T', l, -, e2⟩ := runScan_ok hr
  obtain ⟨-, i2, i3⟩ := scanD_ok e2
  have c00 : 0 < c0 := lt_of_lt_of_le (by positivity) hc
  have E0 : 0 ≤ 8 + 880 / c0 := by positivity
  have E1 : 8 + 880 / c0 ≤ 2 ^ 30 := by
    have : 880 / c0 ≤ 2 ^ 29 := by
      rw [div_le_iff₀ c00]
      norm_num at hc ⊢
      linarith
    norm_num at this ⊢
    linarith
  have len : (rows.take (k + 1)).length ≤ k + 1 := by simp
  obtain ⟨T, t1, t2⟩ := foldl_rel h E0 E1 ((rows.take (k + 1)).map fun q => (q.xX0, X q)) 0 (fin 0) 0
    (by rw [List.length_map]; omega)
    (by
      intro a ha
      obtain ⟨q, hq, rfl⟩ := List.mem_map.1 ha
      have := i2 q (List.mem_of_mem_take hq)
      simp only [this.1]
      exact value_rel h hl ht hp hc (hX q hq)) le_rfl (by simp) ⟨0, rfl, by simp⟩
  rw [List.map_map, zero_add] at t2
  rw [List.map_map] at t1
  refine ⟨T, ?_, ?_⟩
  · rw [i3 k r hk, zero_eq]
    exact t1
  · refine t2.trans ?_
    rw [List.length_map, zero_add]
    have P : 0 ≤ ((rows.take (k + 1)).map X).sum := by
      refine List.sum_nonneg ?_
      intro x hx
      obtain ⟨q, hq, rfl⟩ := List.mem_map.1 hx
      exact (value_rel h hl ht hp hc (hX q hq)).pos.le
    have len' : (((rows.take (k + 1)).length : ℕ) : ℝ) ≤ k + 1 := by exact_mod_cast len
    rw [mul_one_div, mul_div_assoc', div_mul_eq_mul_div]
    refine div_le_div_of_nonneg_right (mul_le_mul_of_nonneg_right ?_ P) (by positivity)
    linarith

/-- a surface without thickness -/
theorem xX0D_thin (h : NearestF 53 1074 fl) (dir : V3) {surf : Surface} (xx : V3) (h1 : surf.innerThickness = fin 0) (h2 : surf.outerThickness = fin 0) :
    Rnd.xX0 fl dir surf xx = nan := by
  unfold Rnd.xX0
  have z : addD fl (fin 0) (fin 0) = fin 0 := by rw [addD, fin_add, add_zero, rnd_zero h]
  have n : ∀ a b : Dbl, a = nan ∨ b = nan → addD fl a b = nan := by
    rintro a b (rfl | rfl)
    · rfl
    · cases a <;> rfl
  have hz : ∀ X : Dbl, divD fl (fin 0) X = fin 0 ∨ divD fl (fin 0) X = nan := by
    intro X
    cases X with
    | fin x =>
      by_cases hx : x = 0
      · subst hx
        exact .inr (by rw [divD]; simp [rnd])
      · exact .inl (by rw [divD, fin_div _ hx, zero_div, rnd_zero h])
    | inf b => exact .inl (by rw [divD, show fin 0 / inf b = fin 0 from rfl, rnd_zero h])
    | nan => exact .inr rfl
  simp only [h1, h2, z]
  have hn : divD fl (addD fl (divD fl (fin 0) surf.innerMaterial.radLength) (divD fl (fin 0) surf.outerMaterial.radLength)) (fin 0) = nan := by
    rcases hz surf.innerMaterial.radLength with i | i <;> rcases hz surf.outerMaterial.radLength with j | j <;> rw [i, j]
    · rw [z, divD]; simp [rnd]
    · rw [n _ _ (.inr rfl)]; rfl
    · rw [n _ _ (.inl rfl)]; rfl
    · rw [n _ _ (.inl rfl)]; rfl
  rw [hn]
  generalize divD fl (fin 0) _ = q
  cases q <;> rfl

theorem foldlD_nan : ∀ (xs : List Dbl) (t : Dbl), t = nan ∨ nan ∈ xs → xs.foldl (addD fl) t = nan := by
  intro xs
  induction xs with
  | nil =>
    intro t h
    simpa using h
  | cons x xs ih =>
    intro t h
    rw [List.foldl_cons]
    refine ih _ ?_
    rcases h with rfl | h
    · exact .inl rfl
    · rcases List.mem_cons.mp h with rfl | h
      · exact .inl (by cases t <;> rfl)
      · exact .inr h

/-- C163 is false as stated: the value of a surface without thickness is 0/0, and the total is not a number from there on, whatever follows. -/
theorem C163_thin_false (h : NearestF 53 1074 fl) {sort : List (Dbl × Surface) → List (Dbl × Surface)} {surfaces : List Surface} {omega t p : Dbl}
    {rows : List Row} (hr : Rnd.runScan fl lm at2 asn atn tn sort surfaces omega t p = .ok rows) (i k : ℕ) (hik : i ≤ k) (r r' : Row)
    (hi : rows[i]? = some r) (hk : rows[k]? = some r') (h1 : r.surf.innerThickness = fin 0) (h2 : r.surf.outerThickness = fin 0) :
    r'.total = nan := by
  obtain ⟨T', l, -, e2⟩ := runScan_ok hr
  obtain ⟨-, i2, i3⟩ := scanD_ok e2
  rw [i3 k r' hk]
  refine foldlD_nan _ _ (.inr (List.mem_map.mpr ⟨r, ?_, ?_⟩))
  · refine List.mem_of_getElem? (i := i) ?_
    rw [List.getElem?_take, if_pos (by omega), hi]
  · rw [(i2 r (List.mem_of_getElem? hi)).1, xX0D_thin h _ _ h1 h2]

/-- C163: the track starts at the origin with the azimuth of the direction and the slope cot θ, within the tolerances. -/
theorem C163_track (h : NearestF 53 1074 fl) (htn : IsTan tn) {om t p : ℝ} (ht : |t| ≤ 720) (hp : |p| ≤ 720) (hs : 1 / 2 ^ 20 ≤ |Real.sin (deg t)|) :
    ∃ tl ph : ℝ, Rnd.scanTrack fl tn (fin om) (Rnd.radians fl (fin t)) (Rnd.radians fl (fin p)) = ⟨M5.zero, hpR om tl ph 0 0, V3.re 0 0 0⟩ ∧
      |tl - Real.cos (deg t) / Real.sin (deg t)| ≤ 70 / 2 ^ 53 / Real.sin (deg t) ^ 2 ∧ |ph - deg p| ≤ 34 / 2 ^ 53 := by
  have half : Ap 0 1 (mulD fl (lit fl 0.5) (fin mPi)) (fin (Real.pi / 2)) 2 2 := by
    have e : mulD fl (lit fl 0.5) (fin mPi) = fin (mPi / 2) := by
      rw [lit, rnd_exact h (rep_dyadic 1 1 (by norm_num) (by norm_num) (by norm_num))
        (size_mono (m := 0) (by norm_num) (by norm_num)), mulD, fin_mul,
        show (0.5 : ℝ) * mPi = mPi / 2 by norm_num; ring, rnd_exact h repF_halfPi ?_]
      have := mPi_bounds
      refine size_mono (m := 1) ?_ (by norm_num)
      rw [abs_of_pos (by linarith)]
      linarith
    rw [e]
    obtain ⟨b1, b2, b3, b4⟩ := mPi_bounds
    refine ⟨by norm_num, by norm_num, _, _, rfl, rfl, ?_, ?_⟩
    · rw [← sub_div, abs_div, abs_of_pos (show (0 : ℝ) < 2 by norm_num), div_le_iff₀ (by norm_num)]
      norm_num at b1 ⊢
      linarith
    · rw [abs_of_pos (by positivity)]
      have := Real.pi_lt_d2
      norm_num at *
      linarith
  have A := Ap.sub h half (radians_ap h ht) (by norm_num) (by norm_num) (by norm_num)
  rw [fin_sub] at A
  obtain ⟨a, _, e1, e2, e3, -⟩ := A.val
  injection e2 with e2
  subst e2
  obtain ⟨ph, q1, q2⟩ := C163_angle h hp
  refine ⟨tn a, ph, ?_, ?_, q2⟩
  · rw [Rnd.scanTrack, e1, q1]
    simp [TP.ofHelix, hpR, tanD, zero_eq, V3.zero, V3.re]
  · obtain ⟨b, hb⟩ : ∃ b, b = Real.pi / 2 - deg t := ⟨_, rfl⟩
    obtain ⟨s, hs'⟩ : ∃ s, s = Real.cos b := ⟨_, rfl⟩
    have es : Real.sin (deg t) = s := by rw [hs', hb, Real.cos_pi_div_two_sub]
    have ec : Real.cos (deg t) = Real.sin b := by rw [hb, Real.sin_pi_div_two_sub]
    rw [show Real.pi / 2 - t / 180 * Real.pi = b from hb.symm] at e3
    rw [es] at hs ⊢
    rw [ec]
    have s0 : 0 < |s| := lt_of_lt_of_le (by positivity) hs
    have s1 : |s| ≤ 1 := by rw [hs']; exact Real.abs_cos_le_one b
    have sne : s ≠ 0 := abs_pos.1 s0
    have d : |a - b| ≤ 51 / 2 ^ 53 := e3.trans (by norm_num)
    have ca : 999 / 1000 * |s| ≤ |Real.cos a| := by
      have k := (abs_abs_sub_abs_le (Real.cos a) (Real.cos b)).trans ((Real.abs_cos_sub_cos_le a b).trans d)
      rw [← hs'] at k
      have := (abs_le.1 k).1
      have : (51 : ℝ) / 2 ^ 53 ≤ 1 / 1000 * (1 / 2 ^ 20) := by norm_num
      linarith
    have ca0 : 0 < |Real.cos a| := lt_of_lt_of_le (by positivity) ca
    have cane : Real.cos a ≠ 0 := abs_pos.1 ca0
    have ss : s ^ 2 = |s| * |s| := by rw [← abs_mul, ← sq, abs_of_nonneg (sq_nonneg s)]
    have t1 : |Real.tan a - Real.sin b / s| ≤ 52 / 2 ^ 53 / s ^ 2 := by
      have e : Real.tan a - Real.sin b / s = Real.sin (a - b) / (Real.cos a * s) := by
        rw [Real.tan_eq_sin_div_cos, Real.sin_sub, ← hs']
        field_simp
      rw [e, abs_div, abs_mul]
      have k1 : |Real.sin (a - b)| ≤ 51 / 2 ^ 53 := Real.abs_sin_le_abs.trans d
      rw [div_le_div_iff₀ (by positivity) (by positivity), ss]
      have k2 : 999 / 1000 * (|s| * |s|) ≤ |Real.cos a| * |s| := by
        rw [← mul_assoc]
        exact mul_le_mul_of_nonneg_right ca s0.le
      have k3 : |Real.sin (a - b)| * (|s| * |s|) ≤ 51 / 2 ^ 53 * (|s| * |s|) := mul_le_mul_of_nonneg_right k1 (by positivity)
      have k4 : (52 : ℝ) / 2 ^ 53 * (999 / 1000 * (|s| * |s|)) ≤ 52 / 2 ^ 53 * (|Real.cos a| * |s|) := mul_le_mul_of_nonneg_left k2 (by positivity)
      have k5 : 0 < |s| * |s| := by positivity
      generalize |s| * |s| = w at *
      generalize |Real.cos a| * |s| = v at *
      norm_num at *
      linarith
    have is : 1 ≤ 1 / s ^ 2 := by
      rw [le_div_iff₀ (by positivity), one_mul, ss]
      exact mul_le_one₀ s1 s0.le s1
    have t2 : |Real.tan a| ≤ 2 * (1 / s ^ 2) := by
      have k1 : |Real.sin b / s| ≤ 1 / s ^ 2 := by
        rw [abs_div, ss, div_le_div_iff₀ s0 (by positivity), one_mul]
        calc |Real.sin b| * (|s| * |s|) ≤ 1 * (1 * |s|) := by
              refine mul_le_mul (Real.abs_sin_le_one b) (mul_le_mul_of_nonneg_right s1 s0.le) (by positivity) (by norm_num)
          _ = |s| := by ring
      have k2 := abs_near t1
      have k3 : 52 / 2 ^ 53 / s ^ 2 ≤ 1 / s ^ 2 := div_le_div_of_nonneg_right (by norm_num) (by positivity)
      linarith
    have t3 := near_trans (htn a) t1
    refine t3.trans ?_
    rw [div_eq_mul_one_div (52 / 2 ^ 53), div_eq_mul_one_div (70 / 2 ^ 53)]
    have k6 : (1 : ℝ) / 2 ^ 1074 ≤ 1 / 2 ^ 53 := one_div_le_one_div_of_le (by positivity) (pow_le_pow_right₀ (by norm_num) (by norm_num))
    generalize (1 : ℝ) / 2 ^ 1074 = η at *
    generalize 1 / s ^ 2 = w at *
    norm_num at *
    linarith

/-- C163, concrete case: a disk with layers of thickness 1 and 2 of a material with radiation length 9 crossed at 45 degrees. -/
theorem C163_example (h : NearestF 53 1074 fl) (hl : IsLibm lm) (xx : V3) :
    ∃ r, Rnd.xX0 fl (Rnd.scanDirection fl lm (Rnd.radians fl (fin 45)) (Rnd.radians fl (fin 0))) (Example.slab 1 2) xx = fin r ∧
      |r - √2 / 3| ≤ 1 / 2 ^ 42 := by
  have e : deg 45 = Real.pi / 4 := by rw [deg]; ring
  have e0 : deg 0 = 0 := by rw [deg]; ring
  have q : alongDir (deg 45) (deg 0) 0 0 1 = √2 / 2 := by
    rw [alongDir, e, Real.cos_pi_div_four]
    ring
  have w : √2 * √2 = 2 := Real.mul_self_sqrt (by norm_num)
  have w1 : 1 ≤ √2 := by rw [Real.one_le_sqrt]; norm_num
  have w2 : √2 ≤ 2 := by nlinarith
  obtain ⟨r, r1, r2⟩ := C163_value (t := 45) (p := 0) (c0 := 1 / 2) (X := √2 / 3) (surf := Example.slab 1 2) (xx := xx) h hl (by norm_num) (by norm_num) (by norm_num)
    ⟨1, 2, 9, 9, 0, 0, 1, rfl, rfl, rfl, rfl, rfl, .inr (by norm_num), .inr (by norm_num), by norm_num, by norm_num [Size], by norm_num [Size], by norm_num,
      by rw [q, abs_of_pos (by positivity)]; linarith, by
        rw [q, layerX0, layerX0, abs_of_pos (by positivity)]
        field_simp
        nlinarith⟩
  refine ⟨r, r1, r2.trans ?_⟩
  norm_num
  linarith

/-- C163, concrete case of a run: the track at 45 degrees crosses that disk, and the total is √2/3 within 2^-42. -/
theorem C163_slab (h : NearestF 53 1074 fl) (hl : IsLibm lm) (htn : IsTan tn) {sort : List (Dbl × Surface) → List (Dbl × Surface)}
    (hsort : IsStdSort Traj.sortWithS sort) {om : ℝ} (o1 : 1 / 2 ^ 40 ≤ om) (o2 : om ≤ 1 / 2 ^ 10) :
    ∃ r S T, Rnd.runScan fl lm at2 asn atn tn sort [Example.slab 1 2] (fin om) (fin 45) (fin 0) = .ok [r] ∧
      r.surf = Example.slab 1 2 ∧ r.s = fin S ∧ |S - 1| ≤ 1 / 2 ^ 40 ∧ r.total = fin T ∧ |T - √2 / 3| ≤ 1 / 2 ^ 42 := by
  have e : deg 45 = Real.pi / 4 := by rw [deg]; ring
  have w : √2 * √2 = 2 := Real.mul_self_sqrt (by norm_num)
  have w1 : 1 ≤ √2 := by rw [Real.one_le_sqrt]; norm_num
  have w2 : √2 ≤ 2 := by nlinarith
  have om0 : 0 < om := lt_of_lt_of_le (by positivity) o1
  obtain ⟨tl, ph, t1, t2, t3⟩ := C163_track (om := om) (t := 45) (p := 0) h htn (by norm_num) (by norm_num)
    (by rw [e, Real.sin_pi_div_four, abs_of_pos (by positivity)]; norm_num; linarith)
  have hsq : (√2 / 2) ^ 2 = 1 / 2 := by
    rw [div_pow, sq, w]
    norm_num
  rw [e, Real.sin_pi_div_four, Real.cos_pi_div_four, div_self (by positivity), hsq] at t2
  rw [show deg 0 = 0 by rw [deg]; ring, sub_zero] at t3
  have tl1 := abs_le.1 t2
  have c1 : (70 : ℝ) / 2 ^ 53 / (1 / 2) ≤ 1 / 2 ^ 45 := by norm_num
  have c2 : (1 : ℝ) / 2 ^ 45 ≤ 1 / 2 := by norm_num
  have tlp : 0 < tl := by linarith
  have tla : |tl| = tl := abs_of_pos tlp
  have big : ∀ {a : ℝ}, |a| ≤ 2 → |a| ≤ 2 ^ 200 := fun {a} ha => size_mono (m := 1) (by linarith) (by norm_num)
  have hR : HelixRange om tl ph 0 0 0 0 0 1 := by
    refine ⟨?_, big ?_, big ?_, big ?_, big (by norm_num), big (by norm_num), big (by norm_num), big (by norm_num), big (by norm_num), big (by norm_num)⟩
    · rw [abs_of_pos om0]
      exact le_trans (one_div_le_one_div_of_le (by positivity) (pow_le_pow_right₀ (by norm_num) (by norm_num))) o1
    · rw [abs_of_pos om0]
      exact o2.trans (by norm_num)
    · rw [tla]
      linarith
    · exact t3.trans (by norm_num)
  have tk := isTrack_r (om := om) (tl := tl) (ph := ph) (d := 0) (z := 0) (rx := 0) (ry := 0) (rz := 0) om0.ne'
  have htl : 1 / 2 ^ 90 ≤ |tl| := by
    rw [tla]
    have : (1 : ℝ) / 2 ^ 90 ≤ 1 / 2 := by norm_num
    linarith
  have n0 : (1 : ℝ) / 2 ^ 500 ≤ 1 / 2 ^ 53 := one_div_le_one_div_of_le (by positivity) (pow_le_pow_right₀ (by norm_num) (by norm_num))
  have n1 : (0 : ℝ) < 1 / 2 ^ 500 := by positivity
  have itl : 1 / tl ≤ 2 := by
    rw [div_le_iff₀ tlp]
    linarith
  have itl0 : 0 < 1 / tl := by positivity
  have itl' : |1 / tl - 1| ≤ 1 / 2 ^ 44 := by
    rw [show 1 / tl - 1 = (1 - tl) * (1 / tl) by field_simp, abs_mul, abs_of_pos itl0]
    have : |1 - tl| ≤ 1 / 2 ^ 45 := by
      rw [abs_sub_comm]
      linarith
    calc _ ≤ 1 / 2 ^ 45 * 2 := mul_le_mul this itl itl0.le (by positivity)
      _ = _ := by norm_num
  have ae : diskArcError tl (0 + 0) 1 ≤ 4 / 2 ^ 53 * (1 / tl) := by
    rw [diskArcError, tla, div_eq_mul_one_div]
    refine mul_le_mul_of_nonneg_right ?_ itl0.le
    norm_num at n0 ⊢
    linarith
  have ae' : diskArcError tl (0 + 0) 1 < 1 / tl := by
    refine lt_of_le_of_lt ae ?_
    have : (4 : ℝ) / 2 ^ 53 < 1 := by norm_num
    nlinarith
  have tol : diskTolerance om tl ph 0 0 0 (0 + 0) 1 (1 / tl) ≤ 1 / 2 ^ 41 := by
    rw [diskTolerance]
    have k1 : |om * (1 / tl)| ≤ 1 := by
      rw [abs_mul, abs_of_pos om0, abs_of_pos itl0]
      have : om ≤ 1 / 2 := o2.trans (by norm_num)
      nlinarith
    have k2 : |ph| ≤ 1 := t3.trans (by norm_num)
    have k3 : 2 * (1 / tl) * (30 + |ph| + 6 * |om * (1 / tl)|) ≤ 2 * 2 * (30 + 1 + 6 * 1) := by
      refine mul_le_mul (by linarith) (by linarith) (by positivity) (by norm_num)
    rw [abs_zero]
    clear * - k3 ae n0 itl
    generalize 2 * (1 / tl) * (30 + |ph| + 6 * |om * (1 / tl)|) = a at *
    generalize (1 : ℝ) / 2 ^ 500 = b at *
    generalize 1 / tl = c at *
    generalize diskArcError tl (0 + 0) 1 = d at *
    norm_num at *
    linarith
  have hw : rZ tl 0 0 (1 / tl) = 1 := by
    rw [rZ]
    field_simp
    norm_num
  have C := C148_disk (at2 := at2) (asn := asn) (atn := atn) (surf := Example.slab 1 2) (ox := 0) (oy := 0) (oz := 1) h hl hR htl rfl rfl rfl rfl tk hw ae'
  obtain ⟨T', l, A, g1, -, g2, -, g3⟩ := C148_list_partial (T := Traj.make ⟨M5.zero, hpR om tl ph 0 0, V3.re 0 0 0⟩) (lm := lm) (at2 := at2) (asn := asn) (atn := atn) h hsort rfl rfl hR.om_pos hR.om
    (x := rX om ph 0 0) (y := rY om ph 0 0) (w := rZ tl 0 0) [⟨Example.slab 1 2, some (1 / tl, 1 / 2 ^ 41)⟩]
    (by
      intro c hc hn
      obtain rfl := List.mem_singleton.1 hc
      cases hn)
    (by
      intro c hc t e' he
      obtain rfl := List.mem_singleton.1 hc
      injection he with he
      injection he with q1 q2
      subst q1 q2
      refine ⟨C.mono tol, fun X Y Z _ _ _ => rfl, ?_, ?_⟩
      · have := (abs_le.1 itl').1
        norm_num at this ⊢
        linarith
      · rw [abs_of_pos om0]
        have k1 : 1024 ≤ 1 / om := by
          rw [le_div_iff₀ om0]
          norm_num at o2
          linarith
        have k2 : 3 * 1024 ≤ Real.pi / om := by
          rw [div_eq_mul_one_div]
          exact mul_le_mul Real.pi_gt_three.le k1 (by norm_num) Real.pi_pos.le
        norm_num at *
        linarith)
    (by
      refine List.Pairwise.filterMap _ (R := fun _ _ => False) ?_ (by simp)
      intro a b h
      exact h.elim)
  have hA : A = [(Example.slab 1 2, 1 / tl, 1 / 2 ^ 41)] := List.perm_singleton.1 g2
  subst hA
  obtain ⟨b, l', ⟨b1, S, b2, b3⟩, hl', rfl⟩ := List.forall₂_cons_left_iff.1 g3
  obtain rfl := List.forall₂_nil_left_iff.1 hl'
  obtain ⟨bs, bsurf⟩ := b
  simp only at b1 b2 b3
  subst b1 b2
  obtain ⟨-, -, D, -⟩ := C144_dispatch fl lm at2 asn atn (Example.slab 1 2) (hpR om tl ph 0 0) (V3.re 0 0 0) 0 V3.zero 0 true
  have D := D rfl rfl rfl
  obtain ⟨xx, hxx⟩ : ∃ xx, xx = (Rnd.intersectWithZDisk fl lm (Example.slab 1 2) (hpR om tl ph 0 0) (V3.re 0 0 0) 0 true).xx := ⟨_, rfl⟩
  obtain ⟨dir, hdir⟩ : ∃ d, d = Rnd.scanDirection fl lm (Rnd.radians fl (fin 45)) (Rnd.radians fl (fin 0)) := ⟨_, rfl⟩
  have hrun : Rnd.runScan fl lm at2 asn atn tn sort [Example.slab 1 2] (fin om) (fin 45) (fin 0) =
      .ok [⟨fin S, Example.slab 1 2, xx, Rnd.xX0 fl dir (Example.slab 1 2) xx, addD fl 0 (Rnd.xX0 fl dir (Example.slab 1 2) xx)⟩] := by
    rw [Rnd.runScan]
    simp only [t1]
    rw [List.map_singleton] at g1
    rw [g1]
    simp only [Out.ok_bind, Rnd.scan, D, ← hxx, ← hdir]
    rfl
  have q : alongDir (deg 45) (deg 0) 0 0 1 = √2 / 2 := by
    rw [alongDir, e, Real.cos_pi_div_four]
    ring
  obtain ⟨T, T1, T2⟩ := C163_total_partial (c0 := 1 / 2) h hl (by norm_num) (by norm_num) (by norm_num) hrun (k := 0) rfl (by norm_num) (X := fun _ => √2 / 3) (by
    intro r hr
    obtain rfl := List.mem_singleton.1 hr
    exact ⟨1, 2, 9, 9, 0, 0, 1, rfl, rfl, rfl, rfl, rfl, .inr (by norm_num), .inr (by norm_num), by norm_num, by norm_num [Size], by norm_num [Size], by norm_num,
      by rw [q, abs_of_pos (by positivity)]; linarith, by
        rw [q, layerX0, layerX0, abs_of_pos (by positivity)]
        field_simp
        nlinarith⟩)
  refine ⟨_, S, T, hrun, rfl, rfl, ?_, T1, ?_⟩
  · refine (near_trans b3 itl').trans (by norm_num)
  · simp only [zero_add, List.take_succ_cons, List.take_zero, List.map_cons, List.map_nil, List.sum_cons, List.sum_nil, add_zero] at T2
    refine T2.trans ?_
    norm_num
    linarith

end Verif
