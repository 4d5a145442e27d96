import Verif.Props.RoundedRefit

/-!
# C166 in double precision: tracks with three hits
-/

open Classical

noncomputable section

namespace Verif

open Dbl Traj Refit Rnd

variable {A : Arith}

namespace Rnd

/-- zero or not a number -/
def Nil (x : Dbl) : Prop := x = fin 0 ∨ x = nan

theorem Nil.sub_self (h : NearestF 53 1074 A.fl) (x : Dbl) : Nil (subD A.fl x x) := by
  cases x with
  | fin a => left; rw [subD, fin_sub, _root_.sub_self, rnd_zero h]
  | inf s => right; cases s <;> rfl
  | nan => right; rfl

theorem Nil.mul (h : NearestF 53 1074 A.fl) {x y : Dbl} (hx : Nil x) (hy : Nil y) : Nil (mulD A.fl x y) := by
  rcases hx with rfl | rfl <;> rcases hy with rfl | rfl
  · left; rw [mulD, fin_mul, mul_zero, rnd_zero h]
  all_goals right; rfl

theorem Nil.add (h : NearestF 53 1074 A.fl) {x y : Dbl} (hx : Nil x) (hy : Nil y) : Nil (addD A.fl x y) := by
  rcases hx with rfl | rfl <;> rcases hy with rfl | rfl
  · left; rw [addD, fin_add, add_zero, rnd_zero h]
  all_goals right; rfl

theorem Nil.sqrt (h : NearestF 53 1074 A.fl) {x : Dbl} (hx : Nil x) : Nil (sqrtD A.fl x) := by
  rcases hx with rfl | rfl
  · left; rw [sqrtD, sqrt_fin le_rfl, Real.sqrt_zero, rnd_zero h]
  · right; rfl

theorem Nil.div {x y : Dbl} (hx : Nil x) (hy : Nil y) : divD A.fl x y = nan := by
  rcases hx with rfl | rfl <;> rcases hy with rfl | rfl
  · rw [divD, show (fin 0 : Dbl) / fin 0 = nan by simp]; rfl
  all_goals rfl

theorem mulD_comm (x y : Dbl) : mulD A.fl x y = mulD A.fl y x := by
  unfold mulD
  congr 1
  cases x with
  | fin a => cases y with
    | fin b => rw [fin_mul, fin_mul, mul_comm]
    | inf t => rw [fin_mul_inf, inf_mul_fin, Bool.xor_comm]
    | nan => rfl
  | inf s => cases y with
    | fin b => rw [fin_mul_inf, inf_mul_fin, Bool.xor_comm]
    | inf t => cases s <;> cases t <;> rfl
    | nan => rfl
  | nan => cases y <;> rfl

/-- the radius for a middle hit that is the last one -/
theorem start_omega (h : NearestF 53 1074 A.fl) (x1 x2 : V3) (tp : TP) : (Rnd.calculateStartHelix A.fl A.at2 x1 x2 x2 tp false).hp OMEGA = nan := by
  have z : Nil (0 : Dbl) := .inl zero_eq
  have m : Nil (rV A.fl { subV A.fl x2 x2 with z := 0 }) := by
    unfold rV dotV subV
    have hx := Nil.sub_self h x2.x
    have hy := Nil.sub_self h x2.y
    exact (((hx.mul h hx).add h (hy.mul h hy)).add h (z.mul h z)).sqrt h
  have s : ∀ u : V3, Nil (crossV A.fl u u).z := fun u => by
    unfold crossV
    dsimp only
    rw [mulD_comm u.y u.x]
    exact Nil.sub_self h _
  have r : ∀ u : V3, divD A.fl (mulD A.fl (-fin (1 / 2)) (rV A.fl { subV A.fl x2 x2 with z := 0 })) (crossV A.fl u u).z = nan := fun u => by
    refine Nil.div ?_ (s u)
    rcases m with e | e <;> rw [e]
    · left; rw [fin_neg, mulD, fin_mul, mul_zero, rnd_zero h]
    · right; rfl
  simp only [Rnd.calculateStartHelix, OMEGA, V5.mk, Matrix.cons_val_zero]
  simp only [Bool.false_eq_true, if_false, r]
  rfl

theorem move_omega {tp tp' : TP} {ref : V3} {upd : Bool} {a : Dbl} (h : Rnd.moveHelixTo A.fl A.lm A.at2 A.mm tp ref upd = .ok (tp', a)) : tp'.hp OMEGA = tp.hp OMEGA := by
  unfold Rnd.moveHelixTo Rnd.moveVals at h
  obtain ⟨v, h1, h2⟩ := Out.bind_eq_ok.mp h
  have e : v.cpa = tp.hp OMEGA := by
    obtain ⟨_, -, h1⟩ := Out.bind_eq_ok.mp h1
    obtain ⟨_, -, h1⟩ := Out.bind_eq_ok.mp h1
    obtain ⟨_, -, h1⟩ := Out.bind_eq_ok.mp h1
    obtain ⟨_, -, h1⟩ := Out.bind_eq_ok.mp h1
    obtain ⟨_, -, h1⟩ := Out.bind_eq_ok.mp h1
    injection h1 with h1
    rw [← h1]
  injection h2 with h2
  rw [← (Prod.mk.inj h2).1, ← e]
  cases upd <;> rfl

end Rnd

/-- C166 is false for tracks with exactly three hits: none of them is refitted, whatever the positions, the rounding and the library, since the middle hit is taken to be
the last one and the curvature is not a number. -/
theorem C166_three_hits_false (h : NearestF 53 1074 A.fl) {S : Setup} (hI : IsStdSort sortWithS S.sortI) (hE : IsStdSort compareElements S.sortE) (i : ℕ) (w : World) (trk : InTrack)
    (hlen : trk.hits.length = 3) (r : World × OutTrack) : Rnd.refit A S i w trk ≠ .ok r := by
  intro hr
  obtain ⟨h1, h2, h3, hh⟩ : ∃ a b c, trk.hits = [a, b, c] := by
    rcases hh : trk.hits with _ | ⟨a, _ | ⟨b, _ | ⟨c, _ | ⟨d, l⟩⟩⟩⟩ <;> rw [hh] at hlen <;> simp at hlen
    exact ⟨a, b, c, rfl⟩
  unfold Rnd.refit at hr
  obtain ⟨_, -, hr⟩ := Out.bind_eq_ok.mp hr
  rw [if_neg (by omega)] at hr
  obtain ⟨iTP, e1, hr⟩ := Out.bind_eq_ok.mp hr
  obtain ⟨t, e2, -⟩ := Out.bind_eq_ok.mp hr
  have om : iTP.hp OMEGA = nan := by
    rw [hh] at e1
    unfold Rnd.seed at e1
    simp only [List.length_cons, List.length_nil, hitAt] at e1
    norm_num at e1
    obtain ⟨⟨tp', a⟩, e3, e4⟩ := Out.bind_eq_ok.mp e1
    injection e4 with e4
    rw [← e4]
    show tp'.hp OMEGA = nan
    rw [move_omega e3, start_omega h]
  obtain ⟨L, ops, k1, -, k2, k3⟩ := C166_calls hI e2 (rawHits_exists _)
  have hL : L = [] := by
    rw [List.eq_nil_iff_forall_not_mem]
    intro x hx
    obtain ⟨surf, -, s, xx, -, -, q, -⟩ := (k1 x).1 hx
    have : Rnd.maxArc A.fl iTP.hp = nan := by
      rw [Rnd.maxArc, Rnd.calculateRadius]
      simp only [calculateCurvature, om]
      rw [cif_pos (by simp)]
      rfl
    rw [this] at q
    exact not_lt_nan _ q
  subst hL
  cases k2
  have q4 := (Rnd.prepare_ok hE k3).1.length_eq
  have q5 := (Rnd.prepare_ok hE k3).2.2.2
  simp only [List.length_map, List.reverse_nil, Rnd.after, Traj.make, List.length_nil] at q4
  exact q5 (List.length_eq_zero_iff.1 q4)

end Verif
