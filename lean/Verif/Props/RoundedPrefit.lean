import Verif.Model.RoundedPrefit
import Verif.Props.RoundedRefitExample
import Verif.Props.RefitHits
import Verif.Props.Prefit

/-!
# C173: the prefit of `lcio_tracks` in double precision
-/

open Classical

noncomputable section

namespace Verif

open Dbl Traj Refit Rnd

variable {A : Arith}

namespace Rnd

/-- the calls for the hits with these indices, in double precision -/
inductive PrefitCalls (A : Arith) (S : Setup) (hits : List TrackHit) : List ℕ → List AddOp → Prop
  | nil : PrefitCalls A S hits [] []
  | hit {i l ops h surf pos prec} (hi : hits[i]? = some h) (hs : LastSurface S.surfaces h.hit.cellID0 surf)
      (hr : Rnd.getHitInfo A h.hit (S.oneD surf) = .ok (pos, prec)) (hl : PrefitCalls A S hits l ops) :
      PrefitCalls A S hits (i :: l) (.measurement pos prec surf h.hit.addr false :: ops)
  | skip {i l ops h} (hi : hits[i]? = some h) (hs : ∀ s ∈ S.surfaces, s.id ≠ h.hit.cellID0) (hl : PrefitCalls A S hits l ops) :
      PrefitCalls A S hits (i :: l) ops

theorem prefitStep_eq (h : NearestF 53 1074 A.fl) {n : ℕ} (hn : n < 2 ^ 31) : Rnd.prefitStep A n = if n ≤ 25 then 1 else n / 25 := by
  unfold Rnd.prefitStep
  split_ifs with h25
  · rfl
  have big : ∀ {x : ℝ}, |x| ≤ 2 ^ 31 → |x| ≤ 2 ^ 1000 := fun hx => hx.trans (pow_le_pow_right₀ (by norm_num) (by norm_num))
  have n0 : (26 : ℝ) ≤ n := by exact_mod_cast (by omega : 26 ≤ n)
  have n1 : (n : ℝ) ≤ 2 ^ 31 := by exact_mod_cast hn.le
  have t : (1 : ℝ) / 2 ^ 1075 ≤ 1 / 2 ^ 100 := one_div_le_one_div_of_le (by positivity) (pow_le_pow_right₀ (by norm_num) (by norm_num))
  have ex : ∀ {m : ℕ}, m < 2 ^ 31 → A.fl m = m := fun {m} hm => by
    have k := h.near m m ⟨m, 1074, by rw [abs_of_nonneg (by positivity)]; exact_mod_cast hm.le.trans (by norm_num), by push_cast; rfl⟩
    rw [sub_self, abs_zero] at k
    exact sub_eq_zero.1 (abs_nonpos_iff.1 k)
  have e1 : rnd A.fl 1024 (fin n) = fin n := by
    rw [rnd_double h (big (by rw [abs_of_nonneg (by positivity)]; exact n1)), ex hn]
  have e2 : lit A.fl 25 = fin 25 := by
    have := ex (m := 25) (by norm_num)
    norm_num at this
    rw [lit, rnd_double h (big (by norm_num)), this]
  have e3 : mulD A.fl 1 (fin n) = fin n := by
    rw [mulD, one_eq, fin_mul, one_mul, e1]
  have sz : |(n : ℝ) / 25| ≤ 2 ^ 31 := by
    rw [abs_of_nonneg (by positivity)]
    linarith
  rw [e1, e3, e2, divD, fin_div _ (by norm_num), rnd_double h (big sz), truncate]
  have err := abs_le.1 (err_double h ((n : ℝ) / 25))
  rw [abs_of_nonneg (by positivity : (0 : ℝ) ≤ n / 25)] at err
  generalize (1 : ℝ) / 2 ^ 1075 = η at *
  obtain ⟨q, r, hr, hq⟩ : ∃ q r, r < 25 ∧ n = 25 * q + r := ⟨n / 25, n % 25, Nat.mod_lt _ (by norm_num), by omega⟩
  have hdiv : n / 25 = q := by omega
  have q1 : (n : ℝ) = 25 * q + r := by exact_mod_cast hq
  have r1 : (r : ℝ) ≤ 24 := by exact_mod_cast (by omega : r ≤ 24)
  have r0 : (0 : ℝ) ≤ r := by positivity
  have low : (q : ℝ) ≤ A.fl ((n : ℝ) / 25) := by
    by_contra hc
    push Not at hc
    have k := h.near ((n : ℝ) / 25) q (by rw [← ex (m := q) (by omega)]; exact h.rep _)
    rw [abs_of_nonpos (by linarith), abs_of_nonpos (by linarith)] at k
    linarith
  rw [hdiv, Nat.floor_eq_iff (by linarith [(by positivity : (0 : ℝ) ≤ q)])]
  refine ⟨low, ?_⟩
  norm_num at err t
  have n2 : (n : ℝ) ≤ 2147483648 := by norm_num at n1; exact_mod_cast n1
  linarith

theorem prefitFrom_eq {n : ℕ} : ∀ m i, n - i ≤ m → Rnd.prefitFrom (Refit.prefitStep n) n i = Refit.prefitLoop n i := by
  have hs := prefitStep_pos n
  intro m
  induction m with
  | zero =>
    intro i hi
    rw [Rnd.prefitFrom, dif_neg (by omega), Refit.prefitLoop, dif_neg (by omega)]
  | succ m ih =>
    intro i hi
    rw [Rnd.prefitFrom, Refit.prefitLoop]
    by_cases h : i < n
    · rw [dif_pos ⟨h, hs⟩, dif_pos h, ih _ (by omega)]
    · rw [dif_neg (by omega), dif_neg h]

theorem prefitIndices_eq (h : NearestF 53 1074 A.fl) {n : ℕ} (hn : n < 2 ^ 31) : Rnd.prefitIndices A n = .ok (Refit.prefitLoop n 0) := by
  have e : Rnd.prefitStep A n = Refit.prefitStep n := prefitStep_eq h hn
  unfold Rnd.prefitIndices
  rw [e, if_pos (.inr (prefitStep_pos n)), prefitFrom_eq n 0 (by omega)]

theorem prefitAdd_ok {S : Setup} {hits : List TrackHit} {idx : List ℕ} {t t' : Traj} (h : Rnd.prefitAdd A S hits t idx = .ok t') :
    ∃ ops, Rnd.PrefitCalls A S hits idx ops ∧ t' = Rnd.after A S.env t ops.reverse := by
  induction idx generalizing t with
  | nil =>
    injection h with h
    exact ⟨[], .nil, h.symm⟩
  | cons i idx ih =>
    rw [Rnd.prefitAdd] at h
    obtain ⟨x, h1, h⟩ := Out.bind_eq_ok.mp h
    have hx : hits[i]? = some x := by
      unfold hitAt at h1
      cases hh : hits[i]? with
      | none => rw [hh] at h1; cases h1
      | some y => rw [hh] at h1; injection h1 with h1; rw [h1]
    cases hf : S.surfaces.reverse.find? (fun s => decide (s.id = x.hit.cellID0)) with
    | none =>
      rw [hf] at h
      obtain ⟨ops, a, b⟩ := ih h
      refine ⟨ops, .skip hx ?_ a, b⟩
      intro s hs
      have := List.find?_eq_none.1 hf s (List.mem_reverse.2 hs)
      simpa using this
    | some surf =>
      rw [hf] at h
      dsimp only at h
      obtain ⟨⟨pos, prec⟩, h2, h⟩ := Out.bind_eq_ok.mp h
      dsimp only at h
      obtain ⟨b, -, h⟩ := Out.bind_eq_ok.mp h
      obtain ⟨ops, e1, e2⟩ := ih h
      refine ⟨_, .hit hx (find_last hf) h2 e1, ?_⟩
      rw [e2, List.reverse_cons, Rnd.after_append]

theorem prefitCalls_ops {S : Setup} {hits : List TrackHit} {idx : List ℕ} {ops : List AddOp} (h : Rnd.PrefitCalls A S hits idx ops) :
    ∀ op ∈ ops, PrecGiven op ∧ ∃ p prec s id, op = .measurement p prec s id false := by
  induction h with
  | nil => intro op h; cases h
  | @hit i l ops h surf pos prec hi hs hr hl ih =>
    intro op hop
    rw [List.mem_cons] at hop
    rcases hop with rfl | hop
    · refine ⟨?_, _, _, _, _, rfl⟩
      unfold Rnd.getHitInfo at hr
      obtain ⟨⟨du, dv⟩, -, hr⟩ := Out.bind_eq_ok.mp hr
      have e := (Prod.mk.inj (Out.ok.inj hr)).2
      show prec ≠ []
      rw [← e]
      simp
    · exact ih op hop
  | skip hi hs hl ih => exact ih

theorem measurement_plain {env : Env} {mass : Dbl} {back : Element} {p : V3} {prec : List Dbl} {s : Surface} {id : ℕ} {e : Element}
    (h : Rnd.measurementElement A.fl A.lm A.at2 A.asn A.atn A.lg A.mm env mass back p prec s id false = .ok (some e)) : e.scatterer = false := by
  unfold Rnd.measurementElement at h
  obtain ⟨hit, -, h⟩ := Out.bind_eq_ok.mp h
  split_ifs at h with hf
  · obtain ⟨⟨q, w⟩, -, h⟩ := Out.bind_eq_ok.mp h
    dsimp only at h
    split at h
    · cases h
    · rename_i energy _
      obtain ⟨e', h1, h⟩ := Out.bind_eq_ok.mp h
      injection h with h
      injection h with h
      subst h
      obtain ⟨proj, rfl⟩ := makeElement_ok h1
      rfl
  · cases h

theorem after_plain (env : Env) (tp : TP) (h : List AddOp)
    (hop : ∀ op ∈ h, ∃ p prec s id, op = .measurement p prec s id false) : ∀ e ∈ (Rnd.after A env (Traj.make tp) h).elems, e.scatterer = false := by
  induction h with
  | nil => intro e he; cases he
  | cons op h ih =>
    have ih := ih fun o ho => hop o (by simp [ho])
    obtain ⟨p, prec, s, id, rfl⟩ := hop op (by simp)
    have hw : ∀ e ∈ (Rnd.withStart A.fl A.lm A.at2 (Rnd.after A env (Traj.make tp) h)).elems, e.scatterer = false := by
      intro e he
      unfold Rnd.withStart at he
      by_cases h0 : (Rnd.after A env (Traj.make tp) h).elems = []
      · rw [if_pos h0] at he
        simp only [Rnd.addElement, h0, List.nil_append, List.mem_singleton] at he
        rw [he]; rfl
      · rw [if_neg h0] at he
        exact ih e he
    simp only [Rnd.after, Rnd.step, Rnd.addMeasurement]
    cases hb : (Rnd.withStart A.fl A.lm A.at2 (Rnd.after A env (Traj.make tp) h)).elems.getLast? with
    | none => exact hw
    | some back =>
      dsimp only
      rcases append_cases (Rnd.withStart A.fl A.lm A.at2 (Rnd.after A env (Traj.make tp) h))
        (Rnd.measurementElement A.fl A.lm A.at2 A.asn A.atn A.lg A.mm env
          (Rnd.withStart A.fl A.lm A.at2 (Rnd.after A env (Traj.make tp) h)).mass back p prec s id false) with ⟨x, h1, h2⟩ | ⟨h1, -⟩
      · rw [h2]
        intro e he
        rw [List.mem_append, List.mem_singleton] at he
        rcases he with he | rfl
        · exact hw e he
        · exact measurement_plain h1
      · rw [h1]
        exact hw

theorem elements_ordered {l : List Element} (hl : ∀ e ∈ l, e.arc ≠ nan) : StrictWeakOn compareElements l := by
  have hc : ∀ x y : Element, compareElements x y ↔ Dbl.lt x.arc y.arc := fun x y => Iff.rfl
  constructor
  · intro a ha
    rw [hc]
    cases a.arc <;> simp [Dbl.lt]
  · intro a ha b hb c hc'
    simp only [hc]
    rcases a.arc with x | s | _ <;> rcases b.arc with y | t | _ <;> rcases c.arc with z | u | _ <;> simp only [Dbl.lt] <;> intro h1 h2 <;> first
      | exact h1.trans h2
      | simp_all
  · intro a ha b hb c hc'
    have key : ∀ p q r : Dbl, p ≠ nan → q ≠ nan → r ≠ nan → ¬ Dbl.lt p q → ¬ Dbl.lt q p → ¬ Dbl.lt q r → ¬ Dbl.lt r q → ¬ Dbl.lt p r ∧ ¬ Dbl.lt r p := by
      intro p q r n1 n2 n3
      rcases p with x | s | _ <;> rcases q with y | t | _ <;> rcases r with z | u | _ <;> simp only [Dbl.lt, ne_eq, not_true_eq_false] at * <;>
        intro h1 h2 h3 h4 <;> first
        | exact ⟨not_lt.2 ((not_lt.1 h3).trans (not_lt.1 h1)), not_lt.2 ((not_lt.1 h2).trans (not_lt.1 h4))⟩
        | (revert h1 h2 h3 h4; cases s <;> cases t <;> cases u <;> simp)
        | simp_all
    simp only [hc]
    exact key _ _ _ (hl a ha) (hl b hb) (hl c hc')

/-- the preparation of elements that are no scatterers -/
theorem prepare_plain (env : Env) {sort : List Element → List Element} (hsort : IsStdSort compareElements sort) (t : Traj) (h0 : t.elems ≠ [])
    (hs : ∀ e ∈ t.elems, e.scatterer = false) (hw : StrictWeakOn compareElements t.elems) :
    ∃ t', Rnd.prepareForFitting A.fl A.lm A.at2 A.asn A.atn A.lg env sort t = .ok t' := by
  have hp := hsort.perm _ hw
  have loop : ∀ (T : Traj), T.elems ≠ [] → ∀ (l : List Element), (∀ e ∈ l, e.scatterer = false) → ∀ s,
      ∃ l', Rnd.prepareLoop A.fl A.lm A.at2 A.asn A.atn A.lg env T s l = .ok l' := by
    intro T hT l
    induction l with
    | nil => exact fun _ s => ⟨[], rfl⟩
    | cons e l ih =>
      intro hl s
      obtain ⟨l', hl'⟩ := ih (fun x hx => hl x (by simp [hx])) e.arc
      obtain ⟨v1, h1⟩ := tangent_defined (A := A) T hT s
      obtain ⟨v2, h2⟩ := tangent_defined (A := A) T hT e.arc
      have he : Rnd.energyLossEntry A.fl A.lm A.at2 A.asn A.atn A.lg env T.mass e = .ok 0 := by
        rw [Rnd.energyLossEntry, hl e (by simp)]
        rfl
      simp only [Rnd.prepareLoop, Rnd.elementJacobian, he, h1, h2, Out.ok_bind, Out.pure_eq, hl']
      exact ⟨_, rfl⟩
  unfold Rnd.prepareForFitting
  rw [stdSort, if_pos hw, Out.ok_bind]
  cases hl : sort t.elems with
  | nil =>
    rw [hl] at hp
    exact absurd hp.nil_eq.symm h0
  | cons e rest =>
    dsimp only
    obtain ⟨l', h1⟩ := loop { t with elems := e :: rest } (by simp) rest (fun x hx => hs x (hp.subset (by rw [hl]; simp [hx]))) 0
    rw [h1]
    exact ⟨_, rfl⟩

theorem after_nonempty (env : Env) (tp : TP) (op : AddOp) (h : List AddOp) (hop : ∃ p prec s id, op = .measurement p prec s id false) :
    (Rnd.after A env (Traj.make tp) (op :: h)).elems ≠ [] := by
  obtain ⟨p, prec, s, id, rfl⟩ := hop
  have hw : (Rnd.withStart A.fl A.lm A.at2 (Rnd.after A env (Traj.make tp) h)).elems ≠ [] := by
    unfold Rnd.withStart
    split_ifs with h0
    · simp [Rnd.addElement]
    · exact h0
  simp only [Rnd.after, Rnd.step, Rnd.addMeasurement]
  cases hb : (Rnd.withStart A.fl A.lm A.at2 (Rnd.after A env (Traj.make tp) h)).elems.getLast? with
  | none => exact hw
  | some back =>
    dsimp only
    rcases append_cases (Rnd.withStart A.fl A.lm A.at2 (Rnd.after A env (Traj.make tp) h))
      (Rnd.measurementElement A.fl A.lm A.at2 A.asn A.atn A.lg A.mm env
        (Rnd.withStart A.fl A.lm A.at2 (Rnd.after A env (Traj.make tp) h)).mass back p prec s id false) with ⟨x, h1, h2⟩ | ⟨h1, -⟩
    · rw [h2]
      simp
    · rw [h1]
      exact hw

theorem calls_nonempty {S : Setup} {hits : List TrackHit} {idx : List ℕ} {ops : List AddOp} (h : Rnd.PrefitCalls A S hits idx ops) {k : ℕ} {x : TrackHit}
    {s : Surface} (hk : k ∈ idx) (hx : hits[k]? = some x) (hs : s ∈ S.surfaces) (he : s.id = x.hit.cellID0) : ops ≠ [] := by
  induction h with
  | nil => cases hk
  | hit => simp
  | skip hi hn hl ih =>
    rw [List.mem_cons] at hk
    rcases hk with rfl | hk
    · rw [hi] at hx
      obtain rfl := Option.some.inj hx
      exact absurd he (hn s hs)
    · exact ih hk

end Rnd

/-- C173: the comparison of path lengths is an order, as `std::sort` requires, if none of them is NaN. -/
theorem C173_ordered {t : Traj} (hn : ∀ e ∈ t.elems, e.arc ≠ nan) : StrictWeakOn compareElements t.elems := Rnd.elements_ordered hn

/-- C173: the trajectory of the prefit can be prepared for the fit if one of the chosen hits has the number of a surface and the path lengths are
in order (`C173_ordered`). -/
theorem C173_prepared {S : Setup} (hE : IsStdSort compareElements S.sortE) {tp0 : TP} {hits : List TrackHit} {idx : List ℕ} {t1 : Traj}
    (h1 : Rnd.prefitAdd A S hits (Traj.make tp0) idx = .ok t1) {k : ℕ} {x : TrackHit} {s : Surface} (hk : k ∈ idx) (hx : hits[k]? = some x)
    (hs : s ∈ S.surfaces) (he : s.id = x.hit.cellID0) (hn : StrictWeakOn compareElements t1.elems) :
    ∃ t, Rnd.prepareForFitting A.fl A.lm A.at2 A.asn A.atn A.lg S.env S.sortE t1 = .ok t := by
  obtain ⟨ops, c1, c2⟩ := Rnd.prefitAdd_ok h1
  have hops := Rnd.prefitCalls_ops c1
  have h0 := Rnd.calls_nonempty c1 hk hx hs he
  have hp : ∀ e ∈ t1.elems, e.scatterer = false := by
    rw [c2]
    exact Rnd.after_plain S.env tp0 ops.reverse fun op hop => (hops op (List.mem_reverse.1 hop)).2
  refine Rnd.prepare_plain S.env hE t1 ?_ hp hn
  rw [c2]
  cases hr : ops.reverse with
  | nil => exact absurd (List.reverse_eq_nil_iff.1 hr) h0
  | cons op r => exact Rnd.after_nonempty S.env tp0 op r (hops op (List.mem_reverse.1 (by rw [hr]; simp))).2

/-- C173: the number of hits between those used is computed without error, so that the same hits are chosen as with exact arithmetic: the first one and then
every `step`-th one, in order, all of them for at most 25 hits and between 25 and 49 for more. -/
theorem C173_chosen (h : NearestF 53 1074 A.fl) {n : ℕ} (hn : n < 2 ^ 31) :
    ∃ l, Rnd.prefitIndices A n = .ok l ∧ (∀ k, k ∈ l ↔ k < n ∧ (if n ≤ 25 then 1 else n / 25) ∣ k) ∧ l.Pairwise (· < ·) ∧
      (n ≤ 25 → l.length = n) ∧ (25 < n → 25 ≤ l.length ∧ l.length ≤ 49) :=
  ⟨_, Rnd.prefitIndices_eq h hn, C102_partial n⟩

/-- C173 (partial): if the trajectory of the prefit can be made, `createPreFit` returns.  The trajectory has a measurement for each of the chosen hits with a
surface of its number, in order, and no scatterer.  If the fit succeeds, the parameters of the first element with its correction are returned, otherwise the
start helix at the origin.  Missing: the cases of `C173_empty_false`, and that energy loss is left out (C106). -/
theorem C173_prefit_partial (h : NearestF 53 1074 A.fl) {S : Setup} (hE : IsStdSort compareElements S.sortE) (i : ℕ) (w : World) {tp tp0 : TP} {a : Dbl}
    {hits : List TrackHit} (hn : hits.length < 2 ^ 31) {t1 t : Traj} {idx : List ℕ} (hm : Rnd.moveHelixTo A.fl A.lm A.at2 A.mm tp V3.zero false = .ok (tp0, a))
    (hi : Rnd.prefitIndices A hits.length = .ok idx) (h1 : Rnd.prefitAdd A S hits (Traj.make tp0) idx = .ok t1)
    (h2 : Rnd.prepareForFitting A.fl A.lm A.at2 A.asn A.atn A.lg S.env S.sortE t1 = .ok t) :
    ∃ ops ps e J p w' tp', Rnd.PrefitCalls A S hits idx ops ∧ t1 = Rnd.after A S.env (Traj.make tp0) ops.reverse ∧
      (∀ k, k ∈ idx ↔ k < hits.length ∧ (if hits.length ≤ 25 then 1 else hits.length / 25) ∣ k) ∧ idx.Pairwise (· < ·) ∧
      Rnd.gblPoints A.fl t.elems = .ok ps ∧ ps.length = t.elems.length ∧ (∀ q ∈ ps, q.scat = none) ∧ t.elems[0]? = some e ∧
      J = Rnd.curvilinearToL3Jacobian A.fl A.lm A.atn A.tn A.mm e.tp.hp (S.env.field e.tp.rp) ∧
      p = (fun k => addD A.fl (e.tp.hp k) (A.mv J (if ((S.gbl ps).results 0).1 = 0 then ((S.gbl ps).results 0).2.1 else V5.zero) k)) ∧
      Rnd.createPreFit A S i w tp hits = .ok (w', tp') ∧
      ((S.gbl ps).ret = 0 → tp' = ⟨A.sim J ((S.gbl ps).results 0).2.2, p, e.tp.rp⟩) ∧
      ((S.gbl ps).ret ≠ 0 → tp' = tp0) := by
  obtain ⟨idx', k1, k2, k3, -⟩ := C173_chosen h hn
  obtain rfl := Out.ok.inj (hi.symm.trans k1)
  obtain ⟨ops, c1, c2⟩ := Rnd.prefitAdd_ok h1
  have hops := Rnd.prefitCalls_ops c1
  have hprep := h2
  rw [c2] at hprep
  obtain ⟨q1, q2, q3, q4⟩ := Rnd.prepare_ok hE hprep
  have kn := (after_known (A := A) (env := S.env) (tp := tp0) (t := Traj.make tp0) rfl (by simp [Traj.make]) (ops := ops.reverse)
    (fun op hop => (hops op (List.mem_reverse.1 hop)).1)).2
  obtain ⟨ps, hps, -, -, hsc⟩ := Rnd.gblPoints_ok (fl := A.fl) (l := t.elems) fun e he => by
    obtain ⟨x, hx, ex⟩ := List.mem_map.1 (q1.subset (List.mem_map_of_mem he))
    exact ⟨(known_noJac ex.symm (kn x hx)).1, q3 e he⟩
  have hlen : ps.length = t.elems.length := by simpa using congrArg List.length hsc
  have hscat : ∀ q ∈ ps, q.scat = none := by
    intro q hq
    have : q.scat.isSome ∈ t.elems.map Element.scatterer := by rw [← hsc]; exact List.mem_map_of_mem (f := fun p => p.scat.isSome) hq
    obtain ⟨e, he, hh⟩ := List.mem_map.1 this
    obtain ⟨x, hx, ex⟩ := List.mem_map.1 (q1.subset (List.mem_map_of_mem (f := noJac) he))
    have s1 : x.scatterer = e.scatterer := congrArg Element.scatterer (a₁ := noJac x) (a₂ := noJac e) ex
    rw [← s1, Rnd.after_plain S.env tp0 ops.reverse (fun op hop => (hops op (List.mem_reverse.1 hop)).2) x hx] at hh
    simpa using hh.symm
  obtain ⟨e, rest, he⟩ := List.exists_cons_of_ne_nil q4
  have e0 : t.elems[0]? = some e := by rw [he]; rfl
  obtain ⟨J, hJ⟩ : ∃ J, J = Rnd.curvilinearToL3Jacobian A.fl A.lm A.atn A.tn A.mm e.tp.hp (S.env.field e.tp.rp) := ⟨_, rfl⟩
  obtain ⟨p, hp⟩ : ∃ p : V5, p = (fun k => addD A.fl (e.tp.hp k) (A.mv J (if ((S.gbl ps).results 0).1 = 0 then ((S.gbl ps).results 0).2.1 else V5.zero) k)) := ⟨_, rfl⟩
  have fill : ∀ gi : GblState, gi.chi2 = (S.gbl ps).chi2 → gi.ndf = (S.gbl ps).ndf → gi.lostWeight = (S.gbl ps).lostWeight →
      Rnd.fillContent A.fl A.lm A.atn A.tn A.mm A.mv A.sim gi (S.gbl ps) t S.env.field 0 =
        .ok ⟨true, (S.gbl ps).chi2, ((S.gbl ps).ndf % 2 ^ 32).toNat, (S.gbl ps).lostWeight, ⟨A.sim J ((S.gbl ps).results 0).2.2, p, e.tp.rp⟩⟩ := by
    intro gi g1 g2 g3
    unfold Rnd.fillContent
    simp only [lt_self_iff_false, if_false, Int.toNat_zero, e0, g1, g2, g3, ← hJ, hp]
    by_cases hc : ((S.gbl ps).results 0).1 = 0 <;> simp only [hc, ne_eq, not_true_eq_false, not_false_eq_true, if_true, if_false]
  have run : ∃ w' tp', Rnd.createPreFit A S i w tp hits = .ok (w', tp') ∧
      ((S.gbl ps).ret = 0 → tp' = ⟨A.sim J ((S.gbl ps).results 0).2.2, p, e.tp.rp⟩) ∧ ((S.gbl ps).ret ≠ 0 → tp' = tp0) := by
    unfold Rnd.createPreFit
    simp only [hm, hi, h1, h2, Out.ok_bind, Rnd.fit, World.clear, if_true, hps]
    by_cases hr : (S.gbl ps).ret = 0
    · simp only [hr, decide_true, if_true, Rnd.getResults]
      rw [fill _ rfl rfl rfl]
      simp only [Out.ok_bind, if_true]
      exact ⟨_, _, rfl, fun _ => rfl, fun hh => absurd rfl hh⟩
    · simp only [hr, decide_false, Bool.false_eq_true, if_false]
      exact ⟨_, _, rfl, fun hh => absurd hh (by simp), fun _ => rfl⟩
  obtain ⟨w', tp', r1, r2, r3⟩ := run
  exact ⟨ops, ps, e, J, p, w', tp', c1, c2, k2, k3, hps, hlen, hscat, e0, hJ, hp, r1, r2, r3⟩

/-- C173 is false: if none of the hits has the number of a surface, the behaviour is undefined, for every rounding. -/
theorem C173_empty_false (h : NearestF 53 1074 A.fl) {S : Setup} (hE : IsStdSort compareElements S.sortE) (i : ℕ) (w : World) {tp tp0 : TP} {a : Dbl}
    {hits : List TrackHit} (hlt : hits.length < 2 ^ 31) (hm : Rnd.moveHelixTo A.fl A.lm A.at2 A.mm tp V3.zero false = .ok (tp0, a))
    (hn : ∀ x ∈ hits, ∀ s ∈ S.surfaces, s.id ≠ x.hit.cellID0) : ∃ m, Rnd.createPreFit A S i w tp hits = .ub m := by
  have key : ∀ idx : List ℕ, (∀ k ∈ idx, k < hits.length) → ∀ t, Rnd.prefitAdd A S hits t idx = .ok t := by
    intro idx
    induction idx with
    | nil => intro _ t; rfl
    | cons k idx ih =>
      intro hk t
      have hlt := hk k (by simp)
      have hf : S.surfaces.reverse.find? (fun s => decide (s.id = hits[k].hit.cellID0)) = none := by
        rw [List.find?_eq_none]
        intro s hs
        simpa using hn hits[k] (List.getElem_mem hlt) s (List.mem_reverse.1 hs)
      rw [Rnd.prefitAdd, hitAt_ok (List.getElem?_eq_getElem hlt), Out.ok_bind]
      dsimp only
      rw [hf]
      exact ih (fun j hj => hk j (by simp [hj])) t
  obtain ⟨idx, k1, k2, -⟩ := C173_chosen h hlt
  have hs : stdSort S.sortE compareElements [] = .ok [] := by
    have hw : StrictWeakOn compareElements ([] : List Element) := by constructor <;> simp
    rw [stdSort, if_pos hw, (hE.perm _ hw).eq_nil]
  refine ⟨"begin()+1 of an empty vector", ?_⟩
  unfold Rnd.createPreFit
  rw [hm, Out.ok_bind]
  dsimp only
  rw [k1, Out.ok_bind, key _ (fun k hk => ((k2 k).1 hk).1), Out.ok_bind]
  have hp : Rnd.prepareForFitting A.fl A.lm A.at2 A.asn A.atn A.lg S.env S.sortE (Traj.make tp0) = .ub "begin()+1 of an empty vector" := by
    unfold Rnd.prepareForFitting
    simp only [Traj.make, hs, Out.ok_bind]
  rw [hp]
  rfl

/-- a disk at z = -10 m -/
def farDisk : Surface := { siliconDisk with origin := V3.re 0 0 (-1000) }

namespace Rnd

/-- the disk is behind the track -/
theorem far_missed (h : NearestF 53 1074 A.fl) (hl : IsLibm A.lm) {φ d z : ℝ} (hφ : |φ| ≤ 4) (hd : |d| ≤ 2 ^ 20) (hz : |z| ≤ 420) :
    ∃ s xx, Rnd.intersectWithSurface A.fl A.lm A.at2 A.asn A.atn farDisk (hpR (1 / 128) 1 φ d z) (V3.re 0 0 0) 0 V3.zero 1 false = .ok ⟨false, s, xx⟩ := by
  have big : ∀ {t : ℝ}, |t| ≤ 2 ^ 20 → |t| ≤ 2 ^ 200 := fun ht => ht.trans (pow_le_pow_right₀ (by norm_num) (by norm_num))
  have hr : HelixRange (1 / 128) 1 φ d z 0 0 0 (-1000) := by
    refine ⟨?_, big (by norm_num), big (by norm_num), big (hφ.trans (by norm_num)), big hd, big (hz.trans (by norm_num)), big (by norm_num), big (by norm_num),
      big (by norm_num), big (by norm_num)⟩
    exact le_trans (one_div_le_one_div_of_le (by positivity) (pow_le_pow_right₀ (by norm_num) (by norm_num))) (show (1 : ℝ) / 2 ^ 7 ≤ |1 / 128| by norm_num)
  have tr := isTrack_r (om := 1 / 128) (tl := 1) (ph := φ) (d := d) (z := z) (rx := 0) (ry := 0) (rz := 0) (by norm_num)
  obtain ⟨s, X, Y, e1, e2, e3, -, -, e6⟩ := C133_disk h hl hr (by norm_num) (surf := farDisk) (ox := 0) (oy := 0) rfl 1 false tr
  have s0 : s < 0 := by
    have t : (1 : ℝ) / 2 ^ 500 ≤ 1 := by rw [div_le_one (by positivity)]; exact one_le_pow₀ (by norm_num)
    generalize (1 : ℝ) / 2 ^ 500 = v at *
    have ez : rZ 1 z 0 s = z + s := by rw [rZ]; ring
    rw [ez] at e3
    have k := (abs_le.1 e3).2
    have z1 := abs_le.1 hz
    rw [zero_add] at k
    norm_num at k
    linarith
  have nf : (Rnd.intersectWithZDisk A.fl A.lm farDisk (hpR (1 / 128) 1 φ d z) (V3.re 0 0 0) 1 false).found = false := by
    rw [← Bool.not_eq_true, e6]
    rintro ⟨k | k, -⟩
    · exact absurd k (by norm_num)
    · push_cast at k
      linarith
  have t1 : farDisk.type.isZCylinder = false := rfl
  have t2 : farDisk.type.isZPlane = false := rfl
  have t3 : farDisk.type.isZDisk = true := rfl
  rw [Rnd.intersectWithSurface, t1, t2, t3]
  simp only [Bool.false_eq_true, if_false, if_true]
  refine ⟨(Rnd.intersectWithZDisk A.fl A.lm farDisk (hpR (1 / 128) 1 φ d z) (V3.re 0 0 0) 1 false).s,
    (Rnd.intersectWithZDisk A.fl A.lm farDisk (hpR (1 / 128) 1 φ d z) (V3.re 0 0 0) 1 false).xx, ?_⟩
  generalize Rnd.intersectWithZDisk A.fl A.lm farDisk (hpR (1 / 128) 1 φ d z) (V3.re 0 0 0) 1 false = q at nf ⊢
  cases q
  simp only at nf
  rw [nf]

end Rnd

/-- the hypotheses of `C173_prepared` and `C173_prefit_partial` for a track of radius 128 cm from the origin and one hit on a disk behind it, which is not added
to the trajectory -/
theorem C173_example (h : NearestF 53 1074 A.fl) (hl : IsLibm A.lm) (ha : IsAtan2 A.at2) (h00 : |A.at2 0 0| ≤ 4) {S : Setup}
    (hE : IsStdSort compareElements S.sortE) (hS : S.surfaces = [farDisk]) (C : M5) {x : TrackHit} (hx : x.hit.cellID0 = 0) {du dv : Dbl}
    (hp : x.hit.planar = some (du, dv)) :
    ∃ tp0 a t1 t, Rnd.moveHelixTo A.fl A.lm A.at2 A.mm ⟨C, hpR (1 / 128) 1 0 0 0, V3.re 0 0 0⟩ V3.zero false = .ok (tp0, a) ∧
      Rnd.prefitIndices A [x].length = .ok [0] ∧ Rnd.prefitAdd A S [x] (Traj.make tp0) [0] = .ok t1 ∧ StrictWeakOn compareElements t1.elems ∧
      t1.elems.length = 1 ∧ Rnd.prepareForFitting A.fl A.lm A.at2 A.asn A.atn A.lg S.env S.sortE t1 = .ok t := by
  have big : ∀ {t : ℝ}, |t| ≤ 2 ^ 20 → |t| ≤ 2 ^ 200 := fun ht => ht.trans (pow_le_pow_right₀ (by norm_num) (by norm_num))
  have hr : HelixRange (1 / 128) 1 0 0 0 0 0 0 0 := by
    refine ⟨?_, big (by norm_num), big (by norm_num), big (by norm_num), big (by norm_num), big (by norm_num), big (by norm_num), big (by norm_num),
      big (by norm_num), big (by norm_num)⟩
    exact le_trans (one_div_le_one_div_of_le (by positivity) (pow_le_pow_right₀ (by norm_num) (by norm_num))) (show (1 : ℝ) / 2 ^ 7 ≤ |1 / 128| by norm_num)
  have zz : V3.zero = V3.re 0 0 0 := by simp only [V3.zero, V3.re, zero_eq]
  obtain ⟨φ, d, z, f, δ, k, e, -, -, φ1, f1, -, g1, g2, g3, -⟩ := C137_move_partial (xv := 0) (yv := 0) (zv := 0) h hl ha h00 hr
    ⟨by rw [abs_zero]; positivity, by rw [abs_zero]; positivity, by rw [abs_zero]; positivity⟩ ⟨by norm_num, by norm_num⟩
  have pi4 : Rounded.mPi ≤ 3.2 := by have := mPi_bounds.2.2.2; linarith
  have d1 : |d| ≤ 2 ^ 20 := by
    have sc := Real.sin_sq_add_cos_sq φ
    have b1 := abs_le.1 g1
    have b2 := abs_le.1 g2
    have s1 := abs_le.1 (Real.abs_sin_le_one (0 + δ))
    have c1 := abs_le.1 (Real.abs_cos_le_one (0 + δ))
    generalize Real.sin (0 + δ) = u1 at *
    generalize Real.cos (0 + δ) = u2 at *
    generalize Real.sin φ = v1 at *
    generalize Real.cos φ = v2 at *
    norm_num at b1 b2
    have k1 : |(128 - d) * v1| ≤ 200 := abs_le.2 ⟨by linarith, by linarith⟩
    have k2 : |(128 - d) * v2| ≤ 200 := abs_le.2 ⟨by linarith, by linarith⟩
    have k3 := sq_le_sq.2 (k1.trans (le_abs_self _))
    have k4 := sq_le_sq.2 (k2.trans (le_abs_self _))
    have k5 : (128 - d) ^ 2 ≤ 80000 := by
      have : (128 - d) ^ 2 = ((128 - d) * v1) ^ 2 + ((128 - d) * v2) ^ 2 := by linear_combination (-(128 - d) ^ 2) * sc
      rw [this]
      linarith
    refine abs_le.2 ⟨?_, ?_⟩ <;> nlinarith
  have z1 : |z| ≤ 420 := by
    have t : (1 : ℝ) / 2 ^ 800 ≤ 1 := by rw [div_le_one (by positivity)]; exact one_le_pow₀ (by norm_num)
    generalize (1 : ℝ) / 2 ^ 800 = v at *
    have b := abs_le.1 g3
    have f2 := abs_le.1 (f1.trans pi4)
    norm_num at b
    exact abs_le.2 ⟨by linarith, by linarith⟩
  rw [← zz] at e
  obtain ⟨c', c1, c2⟩ := C154_params (mm := A.mm) ⟨C, hpR (1 / 128) 1 0 0 0, V3.re 0 0 0⟩ V3.zero false _ _ (by rw [zz] at e ⊢; exact e)
  obtain ⟨s, xx, hi⟩ := Rnd.far_missed (A := A) h hl (φ1.trans (by linarith)) d1 z1
  obtain ⟨tp0, htp⟩ : ∃ tp0 : TP, tp0 = ⟨c', hpR (1 / 128) 1 φ d z, V3.zero⟩ := ⟨_, rfl⟩
  rw [← htp] at c1
  have hidx : Rnd.prefitIndices A [x].length = .ok [0] := by
    rw [Rnd.prefitIndices_eq h (by norm_num)]
    simp [Refit.prefitLoop, Refit.prefitStep]
  obtain ⟨pos, prec, hinfo⟩ : ∃ pos prec, Rnd.getHitInfo A x.hit (S.oneD farDisk) = .ok (pos, prec) := by
    unfold Rnd.getHitInfo Rnd.resolution
    rw [hp]
    exact ⟨_, _, rfl⟩
  have hw : Rnd.withStart A.fl A.lm A.at2 (Traj.make tp0) = Rnd.addElement A.fl A.lm A.at2 (Traj.make tp0) V3.zero 0 := by
    exact if_pos rfl
  have hadd : Rnd.step A S.env (Traj.make tp0) (.measurement pos prec farDisk x.hit.addr false) =
      (Rnd.addElement A.fl A.lm A.at2 (Traj.make tp0) V3.zero 0, .ok false) := by
    simp only [Rnd.step, Rnd.addMeasurement, hw]
    simp only [Rnd.addElement, Traj.make, List.nil_append, List.getLast?_singleton, Rnd.measurementElement, Element.start, htp]
    rw [zz] at hi ⊢
    rw [hi]
    simp only [Out.ok_bind, Bool.false_eq_true, if_false]
    rfl
  have h1 : Rnd.prefitAdd A S [x] (Traj.make tp0) [0] = .ok (Rnd.addElement A.fl A.lm A.at2 (Traj.make tp0) V3.zero 0) := by
    have hf : S.surfaces.reverse.find? (fun s => decide (s.id = x.hit.cellID0)) = some farDisk := by
      rw [hS, hx]
      rfl
    simp only [Rnd.prefitAdd, hitAt_ok (show [x][0]? = some x from rfl), Out.ok_bind, hf, hinfo, hadd]
  have ho : StrictWeakOn compareElements (Rnd.addElement A.fl A.lm A.at2 (Traj.make tp0) V3.zero 0).elems := by
    have ir : ∀ a : Element, ¬ compareElements a a := fun a => by
      show ¬ Dbl.lt a.arc a.arc
      cases a.arc <;> simp [Dbl.lt]
    simp only [Rnd.addElement, Traj.make, List.nil_append]
    constructor <;> simp [ir]
  obtain ⟨t, ht⟩ := C173_prepared hE h1 (k := 0) (by simp) (x := x) rfl (s := farDisk) (by rw [hS]; simp) (by rw [hx]; rfl) ho
  exact ⟨tp0, _, _, t, c1, hidx, h1, ho, rfl, ht⟩

end Verif
