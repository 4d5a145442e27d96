import Verif.Props.RoundedRefit
import Verif.Props.RoundedAddExample

/-!
# C166: an example
-/

open Classical

noncomputable section

namespace Verif

open Dbl Traj Refit Rnd

variable {A : Arith}

namespace Rnd

theorem fillMap_defined : ∀ (l : List (Option TrkHit)) (m : ℤ → Option TrkHit), none ∉ l → ∃ m', fillMap m l = .ok m' := by
  intro l
  induction l with
  | nil => exact fun m _ => ⟨m, rfl⟩
  | cons o l ih =>
    intro m hm
    cases o with
    | none => exact absurd (by simp) hm
    | some x => exact ih _ (fun h => hm (by simp [h]))

/-- the path length of the start element -/
theorem start_arc (h : NearestF 53 1074 A.fl) (hl : IsLibm A.lm) (hs : A.lm.sin 0 = 0) (ha : ∀ c, 0 < c → A.at2 0 c = 0) (om tl : ℝ) :
    Rnd.calculateSfromXY A.fl A.lm A.at2 0 0 (hpR om tl 0 0 0) (V3.re 0 0 0) = fin 0 := by
  have z : ∀ {x : Dbl}, x = fin 0 → rnd A.fl 1024 x = fin 0 := fun e => by rw [e, rnd_zero h]
  have c0 : 1 / 2 ≤ A.lm.cos 0 ∧ A.lm.cos 0 ≤ 2 := by
    have := abs_le.1 (hl.cos_err 0)
    have t : (1 : ℝ) / 2 ^ 1074 ≤ 1 / 4 := one_div_le_one_div_of_le (by norm_num) (le_trans (by norm_num) (pow_le_pow_right₀ (by norm_num) (show 2 ≤ 1074 by norm_num)))
    rw [Real.cos_zero, abs_one] at this
    constructor <;> linarith [this.1, this.2]
  have c1 : 0 < A.fl (A.lm.cos 0) := by
    have := abs_le.1 (err_double h (A.lm.cos 0))
    have t : (1 : ℝ) / 2 ^ 1075 ≤ 1 / 4 := one_div_le_one_div_of_le (by norm_num) (le_trans (by norm_num) (pow_le_pow_right₀ (by norm_num) (show 2 ≤ 1075 by norm_num)))
    rw [abs_of_pos (by linarith [c0.1])] at this
    linarith [this.1, c0.1]
  have add : addD A.fl (fin (A.lm.cos 0)) (fin 0) = fin (A.fl (A.lm.cos 0)) := by
    rw [addD, fin_add, add_zero]
    exact rnd_double h (by rw [abs_of_pos (by linarith [c0.1])]; exact c0.2.trans (by rw [← pow_one (2 : ℝ), ← pow_mul]; exact pow_le_pow_right₀ (by norm_num) (by norm_num)))
  have n : ∀ {a b : ℝ}, a * b = 0 → mulD A.fl (fin a) (fin b) = fin 0 := fun e => by rw [mulD, fin_mul, e, rnd_zero h]
  have s : subD A.fl (fin 0) (fin 0) = fin 0 := by rw [subD, fin_sub, sub_zero, rnd_zero h]
  have a : addD A.fl (fin 0) (fin 0) = fin 0 := by rw [addD, fin_add, add_zero, rnd_zero h]
  have p1 : ¬ (fin 0 : Dbl) < -(fin Rounded.mPi) := by
    rw [fin_neg, fin_lt]
    linarith [mPi_bounds.2.2.1]
  have p2 : ¬ (fin Rounded.mPi : Dbl) < fin 0 := by
    rw [fin_lt]
    linarith [mPi_bounds.2.2.1]
  simp only [Rnd.calculateSfromXY, calculatePhi0, calculateD0, calculateCurvature, hpR, V3.re, zero_eq, OMEGA, PHI0, D0, Matrix.cons_val_zero, Matrix.cons_val_one, Matrix.cons_val, sinD, cosD, hs, n (mul_zero _), n (zero_mul _), s, a, add, atan2D, ha _ c1,
    cif_neg p1, cif_neg p2]
  rw [cif_neg (by simp)]

theorem two_ordered {α : Type} {lt : α → α → Prop} {sort : List α → List α} (hsort : IsStdSort lt sort) {a b : α} (h1 : lt a b) (h2 : ¬ lt b a)
    (h3 : ¬ lt a a) (h4 : ¬ lt b b) : stdSort sort lt [a, b] = .ok [a, b] := by
  have hw : StrictWeakOn lt [a, b] := by
    constructor
    · simp [h3, h4]
    · simp [h1, h2, h3, h4]
    · simp [h1, h2, h3, h4]
  rw [stdSort, if_pos hw]
  congr 1
  have p := hsort.perm _ hw
  have q := hsort.sorted _ hw
  obtain ⟨x, y, e⟩ := List.length_eq_two.1 p.length_eq
  rw [e] at p q ⊢
  have ma := p.mem_iff.2 (show a ∈ [a, b] by simp)
  have mb := p.mem_iff.2 (show b ∈ [a, b] by simp)
  have q' : ¬ lt y x := by simpa using q
  simp only [List.mem_cons, List.not_mem_nil, or_false] at ma mb
  rcases ma with rfl | rfl
  · rcases mb with rfl | rfl
    · exact absurd h1 h3
    · rfl
  · rcases mb with rfl | rfl
    · exact absurd h1 q'
    · exact absurd h1 h3

theorem one_ordered {α : Type} {lt : α → α → Prop} {sort : List α → List α} (hsort : IsStdSort lt sort) {a : α} (h : ¬ lt a a) :
    stdSort sort lt [a] = .ok [a] := by
  have hw : StrictWeakOn lt [a] := by constructor <;> simp [h]
  rw [stdSort, if_pos hw, List.perm_singleton.1 (hsort.perm _ hw)]

theorem silicon_met (hp : V5) (rp : V3) : ∃ s xx, Rnd.intersectWithSurface A.fl A.lm A.at2 A.asn A.atn siliconDisk hp rp 0 V3.zero 0 true = .ok ⟨true, s, xx⟩ := by
  have t1 : siliconDisk.type.isZCylinder = false := rfl
  have t2 : siliconDisk.type.isZPlane = false := rfl
  have t3 : siliconDisk.type.isZDisk = true := rfl
  rw [Rnd.intersectWithSurface, t1, t2, t3]
  simp only [Bool.false_eq_true, if_false, if_true, intersectWithZDisk]
  rw [cif_pos (.inr rfl)]
  exact ⟨_, _, rfl⟩

theorem silicon_entry (env : Env) (m : Dbl) (e : Element) (he : e.surface = some siliconDisk) :
    ∃ d, Rnd.energyLossEntry A.fl A.lm A.at2 A.asn A.atn A.lg env m e = .ok d := by
  unfold Rnd.energyLossEntry
  split_ifs
  · obtain ⟨s, xx, hi⟩ := silicon_met (A := A) e.tp.hp e.tp.rp
    rw [he]
    simp only [computeEnergyLossTrack, hi, Out.ok_bind, if_true, Out.pure_eq, Rnd.computeEnergyLoss]
    exact ⟨_, rfl⟩
  · exact ⟨_, rfl⟩

theorem tangent_defined (t : Traj) (ht : t.elems ≠ []) (s : Dbl) : ∃ v, Rnd.tangentAt A.fl A.lm A.atn t s = .ok v := by
  unfold Rnd.tangentAt Rnd.elementAt
  cases e : t.elems with
  | nil => exact absurd e ht
  | cons x l => exact ⟨_, rfl⟩

theorem prepare_two {env : Env} {sort : List Element → List Element} (hsort : IsStdSort compareElements sort) {t : Traj} {e0 e1 : Element} {a b : ℝ}
    (ht : t.elems = [e0, e1]) (ha : e0.arc = fin a) (hb : e1.arc = fin b) (hab : a < b) (hs : e1.surface = some siliconDisk) :
    ∃ j, Rnd.prepareForFitting A.fl A.lm A.at2 A.asn A.atn A.lg env sort t =
      .ok { t with elems := [{ e0 with jac := some (M5.unit M5.zero) }, { e1 with jac := some j }] } := by
  have c : ∀ x y : Element, compareElements x y ↔ x.arc < y.arc := fun x y => Iff.rfl
  have ho : stdSort sort compareElements [e0, e1] = .ok [e0, e1] :=
    two_ordered hsort (by rw [c, ha, hb, fin_lt]; exact hab) (by rw [c, ha, hb, fin_lt]; linarith) (by rw [c, ha, fin_lt]; linarith)
      (by rw [c, hb, fin_lt]; linarith)
  unfold Rnd.prepareForFitting
  rw [ht, ho]
  simp only [Out.ok_bind, Rnd.prepareLoop, Rnd.elementJacobian]
  obtain ⟨d, hd⟩ := silicon_entry (A := A) env t.mass e1 hs
  have te : ∀ s, ∃ v, Rnd.tangentAt A.fl A.lm A.atn { t with elems := [{ e0 with jac := some (M5.unit M5.zero) }, e1] } s = .ok v := fun s => tangent_defined _ (by simp) s
  obtain ⟨v1, h1⟩ := te e0.arc
  obtain ⟨v2, h2⟩ := te e1.arc
  simp only [hd, h1, h2, Out.ok_bind, Out.pure_eq]
  exact ⟨_, rfl⟩

theorem silicon_range (h : NearestF 53 1074 A.fl) {s : ℝ} (hs : s ≤ 31) : fin s < Rnd.maxArc A.fl (hpR (1 / 128) 1 0 0 0) := by
  have t : (1 : ℝ) / 2 ^ 1075 ≤ 1 / 4 := one_div_le_one_div_of_le (by norm_num) (le_trans (by norm_num) (pow_le_pow_right₀ (by norm_num) (show 2 ≤ 1075 by norm_num)))
  have z : ¬ Dbl.eqv (fin (1 / 128)) (fin 0) := by simp [Dbl.eqv]
  have big : ∀ {x : ℝ}, |x| ≤ 1000 → |x| ≤ 2 ^ 1000 := fun hx => hx.trans (le_trans (show (1000 : ℝ) ≤ 2 ^ 10 by norm_num) (pow_le_pow_right₀ (by norm_num) (by norm_num)))
  have r1 := abs_le.1 (err_double h 128)
  rw [show |(128 : ℝ)| = 128 by norm_num] at r1
  have r2 : 127 ≤ A.fl 128 ∧ A.fl 128 ≤ 129 := by constructor <;> norm_num at r1 t ⊢ <;> linarith [r1.1, r1.2]
  have hr : Rnd.calculateRadius A.fl (hpR (1 / 128) 1 0 0 0) = fin (A.fl 128) := by
    simp only [Rnd.calculateRadius, calculateCurvature, hpR, OMEGA, Matrix.cons_val_zero, zero_eq, one_eq]
    rw [cif_pos z, divD, fin_div _ (by norm_num), show (1 : ℝ) / (1 / 128) = 128 by norm_num, rnd_double h (big (by norm_num)), abs_fin, abs_of_pos (by linarith [r2.1])]
  have b1 : 300 ≤ Rounded.mPi * A.fl 128 ∧ Rounded.mPi * A.fl 128 ≤ 500 := by
    have p := mPi_bounds.2.2
    constructor <;> nlinarith [p.1, p.2, r2.1, r2.2]
  have e := abs_le.1 (err_double h (Rounded.mPi * A.fl 128))
  rw [abs_of_pos (by linarith [b1.1])] at e
  rw [Rnd.maxArc, hr, abs_fin, abs_of_pos (by linarith [r2.1]), mulD, fin_mul, rnd_double h (big (by rw [abs_of_pos (by linarith [b1.1])]; linarith [b1.2])), fin_lt]
  have q : 1 / 2 ^ 53 * (Rounded.mPi * A.fl 128) ≤ 1 := by nlinarith [b1.1, b1.2]
  linarith [e.1, b1.1]

theorem silicon_crossed (h : NearestF 53 1074 A.fl) (C : M5) {sort : List (Dbl × Surface) → List (Dbl × Surface)} (hsort : IsStdSort sortWithS sort) {s : ℝ} {xx : V3}
    (hi : Rnd.intersectWithSurface A.fl A.lm A.at2 A.asn A.atn siliconDisk (hpR (1 / 128) 1 0 0 0) (V3.re 0 0 0) 0 V3.zero 1 true = .ok ⟨true, fin s, xx⟩)
    (hs : |s - 30| ≤ 1 / 10 ^ 10) :
    Rnd.getIntersections A.fl A.lm A.at2 A.asn A.atn sort (Traj.make ⟨C, hpR (1 / 128) 1 0 0 0, V3.re 0 0 0⟩) [siliconDisk] =
      (⟨⟨C, hpR (1 / 128) 1 0 0 0, V3.re 0 0 0⟩, [], [(fin s, siliconDisk)], pionMass⟩, .ok [(fin s, siliconDisk)]) := by
  have s1 := abs_le.1 hs
  have s2 : 0 ≤ s ∧ s ≤ 31 := by constructor <;> norm_num at s1 ⊢ <;> linarith [s1.1, s1.2]
  have ho : stdSort sort sortWithS [(fin s, siliconDisk)] = .ok [(fin s, siliconDisk)] :=
    one_ordered hsort (by show ¬ (fin s : Dbl) < fin s; rw [fin_lt]; exact lt_irrefl _)
  unfold Rnd.getIntersections Traj.make
  simp only [Rnd.intersectionLoop, hi]
  rw [cif_pos ⟨trivial, by rw [zero_eq, fin_le]; exact s2.1, silicon_range h s2.2⟩]
  simp only [List.nil_append, ho]

theorem silicon_call (h : NearestF 53 1074 A.fl) (oneD : Surface → Bool) {m : ℤ → Option TrkHit} (m0 : m 0 = none) :
    Rnd.callFor A oneD m siliconDisk = .ok (some (.scatterer siliconDisk)) := by
  have r := Rel.lit (k := 20) (x := 1e-6) h (by norm_num) (by norm_num) (by norm_num)
  have i : toInt siliconDisk.id = 0 := by decide
  unfold Rnd.callFor
  rw [i, m0]
  dsimp only
  rw [cif_neg]
  rintro ⟨q, -⟩
  obtain ⟨v, e1, e2⟩ := r.val
  have d : siliconDisk.innerMaterial.density = fin 2.33 := rfl
  rw [d, e1, fin_lt] at q
  have := (abs_le.1 e2).2
  norm_num at this q
  linarith

/-- a track of pions with the radius 128 cm and a disk of silicon: the crossing, the element and the preparation -/
theorem silicon_fitted (h : NearestF 53 1074 A.fl) (hl : IsLibm A.lm) (ha : IsAtan2 A.at2) (h00 : |A.at2 0 0| ≤ 4) (hat : IsAtan A.atn) (hlg : IsLogLib A.lg)
    (hs0 : A.lm.sin 0 = 0) (h0x : ∀ c, 0 < c → A.at2 0 c = 0) {S : Setup} (hI : IsStdSort sortWithS S.sortI) (hE : IsStdSort compareElements S.sortE)
    (hB : S.env.globalField = fun _ => V3.re 0 0 3.5) (C : M5) :
    ∃ s t2 t e0 e1, Rnd.getIntersections A.fl A.lm A.at2 A.asn A.atn S.sortI (Traj.make ⟨C, hpR (1 / 128) 1 0 0 0, V3.re 0 0 0⟩) [siliconDisk] =
        (⟨⟨C, hpR (1 / 128) 1 0 0 0, V3.re 0 0 0⟩, [], [(fin s, siliconDisk)], pionMass⟩, .ok [(fin s, siliconDisk)]) ∧
      Rnd.step A S.env ⟨⟨C, hpR (1 / 128) 1 0 0 0, V3.re 0 0 0⟩, [], [(fin s, siliconDisk)], pionMass⟩ (.scatterer siliconDisk) = (t2, .ok true) ∧
      Rnd.prepareForFitting A.fl A.lm A.at2 A.asn A.atn A.lg S.env S.sortE t2 = .ok t ∧ t.elems = [e0, e1] ∧ e0.surface = none ∧
      e1.surface = some siliconDisk ∧ e0.arc < e1.arc := by
  obtain ⟨s, X, Y, Z, x, y, w, hi, e1, -⟩ := silicon_arrival (at2 := A.at2) (asn := A.asn) (atn := A.atn) h hl
  have hint := silicon_crossed h C hI hi e1
  obtain ⟨tp, htp⟩ : ∃ tp : TP, tp = ⟨C, hpR (1 / 128) 1 0 0 0, V3.re 0 0 0⟩ := ⟨_, rfl⟩
  have hw : Rnd.withStart A.fl A.lm A.at2 ⟨tp, [], [(fin s, siliconDisk)], pionMass⟩ = ⟨tp, [Element.start (fin 0) tp 0], [(fin s, siliconDisk)], pionMass⟩ := by
    rw [Rnd.withStart, if_pos rfl, Rnd.addElement, htp]
    have := Rnd.start_arc h hl hs0 h0x (1 / 128) 1
    simp only [V3.zero]
    rw [zero_eq] at this ⊢
    rw [this]
    rfl
  obtain ⟨⟨e, L, q1, q2, q3, -⟩, -⟩ := C159_silicon (asn := A.asn) (mm := A.mm) h hl ha h00 hat hlg S.env hB C ⟨tp, [Element.start (fin 0) tp 0], [(fin s, siliconDisk)], pionMass⟩
    (by rw [← ofSci_eq]; rfl) (by rw [htp])
  have q4 : e.surface = some siliconDisk := by
    have b : Rnd.withStart A.fl A.lm A.at2 ⟨tp, [Element.start (fin 0) tp 0], [(fin s, siliconDisk)], pionMass⟩ =
        ⟨tp, [Element.start (fin 0) tp 0], [(fin s, siliconDisk)], pionMass⟩ := by rw [Rnd.withStart, if_neg (by simp)]
    rw [Rnd.addScatterer, b] at q1
    simp only [List.getLast?_singleton, Traj.append] at q1
    split at q1
    · rename_i e' he
      have k : [Element.start (fin 0) tp 0] ++ [e'] = [Element.start (fin 0) tp 0] ++ [e] := congrArg (fun x => x.1.elems) q1
      have k' : e' = e := by simpa using k
      rw [← k']
      exact (scatterer_elem he).2
    all_goals cases congrArg Prod.snd q1
  have hstep : Rnd.step A S.env ⟨tp, [], [(fin s, siliconDisk)], pionMass⟩ (.scatterer siliconDisk) =
      (⟨tp, [Element.start (fin 0) tp 0] ++ [e], [(fin s, siliconDisk)], pionMass⟩, .ok true) := by
    rw [Rnd.step, ← q1, Rnd.addScatterer, Rnd.addScatterer, hw]
    rfl
  have L0 : 0 < L := by
    have := (abs_le.1 q3).1
    norm_num at this
    linarith
  obtain ⟨j, hj⟩ := prepare_two (A := A) (env := S.env) hE (t := ⟨tp, [Element.start (fin 0) tp 0] ++ [e], [(fin s, siliconDisk)], pionMass⟩) rfl rfl q2 L0 q4
  refine ⟨s, _, _, { Element.start (fin 0) tp 0 with jac := some (M5.unit M5.zero) }, { e with jac := some j }, hint, by rw [← htp]; exact hstep, hj, rfl, rfl, q4, ?_⟩
  show (fin 0 : Dbl) < e.arc
  rw [q2, fin_lt]
  exact L0

end Rnd

/-- `C166_calls`, `C166_points` and `C166_first` for a track of pions with the radius 128 cm and a disk of silicon, with any hits on other surfaces; `sin 0` and `atan2(0, x)` are zero, as for
every library -/
theorem C166_example (h : NearestF 53 1074 A.fl) (hl : IsLibm A.lm) (ha : IsAtan2 A.at2) (h00 : |A.at2 0 0| ≤ 4) (hat : IsAtan A.atn) (hlg : IsLogLib A.lg)
    (hs0 : A.lm.sin 0 = 0) (h0x : ∀ c, 0 < c → A.at2 0 c = 0) {S : Setup} (hI : IsStdSort sortWithS S.sortI) (hE : IsStdSort compareElements S.sortE)
    (hB : S.env.globalField = fun _ => V3.re 0 0 3.5) (hS : S.surfaces = [siliconDisk]) (C : M5) {hits : List TrackHit} (hn : none ∉ expand hits)
    (hh : NoHit (expand hits) 0) :
    ∃ t e0 e1, Rnd.trajectory A S ⟨C, hpR (1 / 128) 1 0 0 0, V3.re 0 0 0⟩ hits = .ok t ∧ t.elems = [e0, e1] ∧ e0.surface = none ∧
      e1.surface = some siliconDisk ∧ e0.arc < e1.arc := by
  obtain ⟨s, t2, t, e0, e1, hint, hstep, hj, r⟩ := Rnd.silicon_fitted h hl ha h00 hat hlg hs0 h0x hI hE hB C
  obtain ⟨m, hm⟩ := fillMap_defined (expand hits) (fun _ => none) hn
  have m0 : m 0 = none := by
    rcases (fillMap_spec hm).2 0 with ⟨x, hx, -⟩ | ⟨-, e⟩
    · obtain ⟨q1, q2⟩ := lastHit_mem hx
      exact absurd q2 (hh x q1)
    · exact e
  have hcall := silicon_call h S.oneD m0
  refine ⟨t, e0, e1, ?_, r⟩
  unfold Rnd.trajectory
  dsimp only
  rw [hm, hS, hint]
  simp only [Out.ok_bind, Rnd.addAll, hcall, hstep]
  exact hj

end Verif
