import Verif.Lemmas.UnitTestTracks

/-!
# The program of unit tests: C134, C135
-/

open Classical

noncomputable section

namespace Verif

open Dbl Rnd UT

variable {fl sl : ℝ → ℝ}

theorem count_all {l : List Check} {n : ℕ} (h : NearestF 53 1074 fl) (h' : NearestF 24 149 sl) (hs : ∀ c ∈ l, Sure c) (hn : l.length = n) :
    (l.map (Check.eval fl sl)).count false = 0 ∧ (l.map (Check.eval fl sl)).count true = n := by
  rw [sure_eval h h' hs, hn]
  simp [List.count_replicate]

/-- the numbers of fails and successes of a test in its first run -/
def firstRun (t : Test) : ℕ × ℕ := ((nextChecks t).count false, (nextChecks t).count true)

/-- The tests can be made, and the numbers of fails and successes of each in its first run are known. -/
theorem simpleTests_first (h : NearestF 53 1074 fl) (h' : NearestF 24 149 sl) : ∃ ts, simpleTests fl sl = .ok ts ∧
    ts.map firstRun = [(0, 175), (0, 15), (24, 126), (0, 21), (0, 16), (0, 18), (0, 16), (0, 32), (0, 30)] := by
  obtain ⟨l1, e1, n1, s1⟩ := tpsimple_sure
  obtain ⟨n2, s2⟩ := constantbfield_sure
  have s4 := spacevectors_sure h'
  obtain ⟨l5, e5, n5, s5⟩ := intersection_sure
  obtain ⟨l6, r6, e6, n6, s6⟩ := result_sure
  obtain ⟨l7, e7, n7, s7⟩ := helix_sure
  obtain ⟨l8, t, e8, n8, s8, b8⟩ := initial_sure h'
  obtain ⟨l9, e9, n9, s9⟩ := final_sure h'
  rw [simpleTests, e1, Out.ok_bind, e5, Out.ok_bind, e6, Out.ok_bind, e7, Out.ok_bind, e8, Out.ok_bind, e9, Out.ok_bind, Out.pure_eq]
  refine ⟨_, rfl, ?_⟩
  · have c1 := count_all h h' s1 n1
    have c2 := count_all h h' s2 n2
    have c3 := (C126_false h h').1
    have c4 := count_all h h' s4 (spacevectors_length (sl := sl) (spacevectorsState sl 0))
    have c5 := count_all h h' s5 n5
    have c6 := count_all h h' s6 n6
    have c7 := count_all h h' s7 n7
    have c8 := count_all h h' s8 n8
    have c9 := count_all h h' s9 n9
    have c8' : ((l8 ++ [Check.fcmp (fin t) (fin t)]).map (Check.eval fl sl)).count false = 0 ∧
        ((l8 ++ [Check.fcmp (fin t) (fin t)]).map (Check.eval fl sl)).count true = 32 := by
      have : Check.eval fl sl (.fcmp (fin t) (fin t)) = true := C125_equal h h' b8
      rw [List.map_append, List.count_append, List.count_append, c8.1, c8.2, List.map_singleton, this]
      exact ⟨rfl, rfl⟩
    have f : ∀ {t : Test} {a b : ℕ}, (nextChecks t).count false = a ∧ (nextChecks t).count true = b → firstRun t = (a, b) :=
      fun {_ _ _} e => Prod.ext e.1 e.2
    simp only [List.map_cons, List.map_nil]
    refine congrArg₂ List.cons (f c1) (congrArg₂ List.cons (f c2) (congrArg₂ List.cons (f c3) (congrArg₂ List.cons (f c4)
      (congrArg₂ List.cons (f c5) (congrArg₂ List.cons (f c6) (congrArg₂ List.cons (f c7) (congrArg₂ List.cons (f c8')
      (congrArg₂ List.cons (f c9) rfl))))))))

/-- C134 is false as stated: the program reports 24 fails (all of the test matrixOps), and returns 0 to the system, like a program that
has succeeded. -/
theorem C134_false (nd : Bool) (h : NearestF 53 1074 fl) (h' : NearestF 24 149 sl) : program nd fl sl = .ok (some (24, 449), 0) := by
  obtain ⟨ts, e, f⟩ := simpleTests_first h h'
  obtain ⟨r, k⟩ := C124_printed_partial nd ts
  obtain ⟨o, k'⟩ := C124_exit_false nd ts
  have a : ts.map (fun t => ((nextChecks t).count false : ℤ)) = (ts.map firstRun).map fun p => (p.1 : ℤ) := by
    rw [List.map_map]; rfl
  have b : ts.map (fun t => ((nextChecks t).count true : ℤ)) = (ts.map firstRun).map fun p => (p.2 : ℤ) := by
    rw [List.map_map]; rfl
  rw [a, b, f] at k
  rw [program, e, Out.ok_bind, k]
  rw [k] at k'
  simp only [Out.ok.injEq, Prod.mk.injEq] at k'
  rw [k'.2]
  rfl

/-- C134 (partial): all tests can be made, and the checks of all tests except matrixOps succeed in the first run.  Missing: matrixOps
(C134_false, C126_false) and further runs (C134_again_false). -/
theorem C134_others_partial (h : NearestF 53 1074 fl) (h' : NearestF 24 149 sl) : ∃ ts, simpleTests fl sl = .ok ts ∧ ts.length = 9 ∧
    ∀ i (hi : i < ts.length), i ≠ 2 → ∀ c ∈ ts[i].checks 0, c = true := by
  obtain ⟨ts, e, f⟩ := simpleTests_first h h'
  have hl : ts.length = 9 := by
    have := congrArg List.length f
    simpa using this
  refine ⟨ts, e, hl, ?_⟩
  intro i hi i2 c hc
  have g : firstRun ts[i] = (ts.map firstRun)[i]'(by simpa using hi) := by simp
  have z : (firstRun ts[i]).1 = 0 := by
    rw [g]
    simp only [f]
    have : i = 0 ∨ i = 1 ∨ i = 3 ∨ i = 4 ∨ i = 5 ∨ i = 6 ∨ i = 7 ∨ i = 8 := by omega
    rcases this with rfl | rfl | rfl | rfl | rfl | rfl | rfl | rfl <;> rfl
  have r0 : ts[i].runs = 0 := by
    obtain ⟨l1, e1, -⟩ := tpsimple_sure
    obtain ⟨l5, e5, -⟩ := intersection_sure
    obtain ⟨l6, r6, e6, -⟩ := result_sure
    obtain ⟨l7, e7, -⟩ := helix_sure
    obtain ⟨l8, t, e8, -⟩ := initial_sure h'
    obtain ⟨l9, e9, -⟩ := final_sure h'
    rw [simpleTests, e1, Out.ok_bind, e5, Out.ok_bind, e6, Out.ok_bind, e7, Out.ok_bind, e8, Out.ok_bind, e9, Out.ok_bind, Out.pure_eq,
      Out.ok.injEq] at e
    have : ∀ t ∈ ts, t.runs = 0 := by
      rw [← e]
      intro t ht
      simp only [List.mem_cons, List.not_mem_nil, or_false] at ht
      rcases ht with rfl | rfl | rfl | rfl | rfl | rfl | rfl | rfl | rfl <;> rfl
    exact this _ (List.getElem_mem hi)
  have z' : false ∉ ts[i].checks 0 := by
    rw [← r0]
    exact List.count_eq_zero.1 z
  cases c with
  | true => rfl
  | false => exact absurd hc z'

/-- There are such roundings: the hypotheses of C134 are met. -/
example : ∃ fl sl, NearestF 53 1074 fl ∧ NearestF 24 149 sl ∧ program true fl sl = .ok (some (24, 449), 0) ∧
    program false fl sl = .ok (some (24, 449), 0) := by
  obtain ⟨fl, h⟩ := exists_nearestF 53 1074
  obtain ⟨sl, h'⟩ := exists_nearestF 24 149
  exact ⟨fl, sl, h, h', C134_false true h h', C134_false false h h'⟩

/-! ## further runs -/

theorem fcmp_far (h : NearestF 53 1074 fl) (h' : NearestF 24 149 sl) {x y : ℝ} (hx : |x| ≤ 1000) (hy : |y| ≤ 1000)
    (hxy : 1 / 1000 ≤ |x - y|) : Check.eval fl sl (.fcmp (fin x) (fin y)) = false := by
  rw [← Bool.not_eq_true]
  intro hc
  have := C125_close h h' hc
  have k : (|x| + |y|) / 2 ^ 24 ≤ 2000 / 2 ^ 24 := div_le_div_of_nonneg_right (by linarith) (by positivity)
  norm_num at this k hxy
  linarith

theorem spacevectors_later (n : ℕ) : spacevectorsState sl (n + 1) = ⟨spaceA, spaceB, .fin (sl 0.3)⟩ := by
  induction n with
  | zero => rfl
  | succ n ih => rw [spacevectorsState, ih]; rfl

/-- C134 is false also in this respect: the tests change the objects they check.  In a second and any further run 5 checks of
spacevectors and 9 checks of resultTest fail. -/
theorem C134_again_false (h : NearestF 53 1074 fl) (h' : NearestF 24 149 sl) (n : ℕ) :
    ((spacevectorsChecks sl (n + 1)).map (Check.eval fl sl)).count false = 5 ∧
    ∃ l r, resultTestRun (n + 1) = .ok (l, r) ∧ (l.map (Check.eval fl sl)).count false = 9 := by
  refine ⟨?_, ?_⟩
  · have ev : ∀ c ∈ spacevectorsChecks sl 0, c.eval fl sl = true := by
      intro c hc
      have e := sure_eval h h' (spacevectors_sure h')
      have : c.eval fl sl ∈ (spacevectorsChecks sl 0).map (Check.eval fl sl) := List.mem_map_of_mem hc
      rw [e] at this
      exact List.eq_of_mem_replicate this
    have lt : ∀ i, i < 21 → i < (spacevectorsChecks sl 0).length := fun i hi => hi
    have a1 : Check.eval fl sl (.fcmp (fin 3.1) (fin (sl 0.1))) = false := by
      rw [sl_01 h']
      refine fcmp_far h h' ?_ ?_ ?_
      · rw [abs_of_pos] <;> norm_num
      · rw [abs_of_pos] <;> norm_num
      · rw [abs_of_pos] <;> norm_num
    have a2 : Check.eval fl sl (.fcmp (fin 2.7) (fin (sl 0.2))) = false := by
      rw [sl_02 h']
      refine fcmp_far h h' ?_ ?_ ?_
      · rw [abs_of_pos] <;> norm_num
      · rw [abs_of_pos] <;> norm_num
      · rw [abs_of_pos] <;> norm_num
    have a3 : Check.eval fl sl (.fcmp (V3.rho ⟨spaceA, spaceB, .fin (sl 0.3)⟩) 0.22360679774997896964) = false := by
      have t : V3.rho ⟨spaceA, spaceB, .fin (sl 0.3)⟩ = fin (Real.sqrt (3.1 * 3.1 + 2.7 * 2.7)) := trans_fin _ _ _
      have u1 : 1 ≤ Real.sqrt (3.1 * 3.1 + 2.7 * 2.7) := Real.le_sqrt_of_sq_le (by norm_num)
      have u2 : Real.sqrt (3.1 * 3.1 + 2.7 * 2.7) ≤ 1000 := Real.sqrt_le_iff.2 (by norm_num)
      rw [t]
      refine fcmp_far h h' (y := 0.22360679774997896964) ?_ ?_ ?_
      · rw [abs_of_pos (by linarith)]; exact u2
      · rw [abs_of_pos] <;> norm_num
      · rw [abs_of_pos] <;> (norm_num at u1 ⊢; linarith)
    have key : (spacevectorsChecks sl (n + 1)).map (Check.eval fl sl) =
        [true, true, true, false, false, true, false, false, true, true, true, true, true, true, true, true, false, true, true, true, true] := by
      rw [spacevectorsChecks, spacevectors_later]
      refine congrArg₂ List.cons ?_ (congrArg₂ List.cons ?_ (congrArg₂ List.cons ?_ (congrArg₂ List.cons ?_ (congrArg₂ List.cons ?_ (congrArg₂ List.cons ?_ (congrArg₂ List.cons ?_ (congrArg₂ List.cons ?_ (congrArg₂ List.cons ?_ (congrArg₂ List.cons ?_ (congrArg₂ List.cons ?_ (congrArg₂ List.cons ?_ (congrArg₂ List.cons ?_ (congrArg₂ List.cons ?_ (congrArg₂ List.cons ?_ (congrArg₂ List.cons ?_ (congrArg₂ List.cons ?_ (congrArg₂ List.cons ?_ (congrArg₂ List.cons ?_ (congrArg₂ List.cons ?_ (congrArg₂ List.cons ?_ rfl))))))))))))))))))))
      · exact ev _ (List.mem_iff_getElem.2 ⟨0, lt _ (by norm_num), rfl⟩)
      · exact ev _ (List.mem_iff_getElem.2 ⟨1, lt _ (by norm_num), rfl⟩)
      · exact ev _ (List.mem_iff_getElem.2 ⟨2, lt _ (by norm_num), rfl⟩)
      · exact a1
      · exact a2
      · exact ev _ (List.mem_iff_getElem.2 ⟨5, lt _ (by norm_num), rfl⟩)
      · exact a1
      · exact a2
      · exact ev _ (List.mem_iff_getElem.2 ⟨8, lt _ (by norm_num), rfl⟩)
      · exact ev _ (List.mem_iff_getElem.2 ⟨9, lt _ (by norm_num), rfl⟩)
      · exact ev _ (List.mem_iff_getElem.2 ⟨10, lt _ (by norm_num), rfl⟩)
      · exact ev _ (List.mem_iff_getElem.2 ⟨11, lt _ (by norm_num), rfl⟩)
      · exact ev _ (List.mem_iff_getElem.2 ⟨12, lt _ (by norm_num), rfl⟩)
      · exact ev _ (List.mem_iff_getElem.2 ⟨13, lt _ (by norm_num), rfl⟩)
      · exact ev _ (List.mem_iff_getElem.2 ⟨14, lt _ (by norm_num), rfl⟩)
      · exact ev _ (List.mem_iff_getElem.2 ⟨15, lt _ (by norm_num), rfl⟩)
      · exact a3
      · exact ev _ (List.mem_iff_getElem.2 ⟨17, lt _ (by norm_num), rfl⟩)
      · exact ev _ (List.mem_iff_getElem.2 ⟨18, lt _ (by norm_num), rfl⟩)
      · exact ev _ (List.mem_iff_getElem.2 ⟨19, lt _ (by norm_num), rfl⟩)
      · exact ev _ (List.mem_iff_getElem.2 ⟨20, lt _ (by norm_num), rfl⟩)
    rw [key]
    rfl
  · have st : ∀ n, ∃ l, resultTestRun n = .ok (l, resultAfter) := by
      intro n
      induction n with
      | zero =>
        obtain ⟨c1, c2, e, -⟩ := resultStep_eq FitResults.default
        exact ⟨_, e⟩
      | succ n ih =>
        obtain ⟨l, e⟩ := ih
        obtain ⟨c1, c2, e', -⟩ := resultStep_eq resultAfter
        exact ⟨_, by rw [resultTestRun, e, Out.ok_bind]; exact e'⟩
    obtain ⟨l, e⟩ := st n
    obtain ⟨c1, c2, e', e1, n2, s2⟩ := resultStep_eq resultAfter
    refine ⟨c1 ++ c2, resultAfter, by rw [resultTestRun, e, Out.ok_bind]; exact e', ?_⟩
    have far : ∀ {x : ℝ}, 1 / 1000 ≤ x → x ≤ 1000 → Check.eval fl sl (.fcmp (fin x) 0) = false := by
      intro x h1 h2
      rw [zero_eq]
      refine fcmp_far h h' ?_ ?_ ?_
      · rw [abs_of_pos (by linarith)]; exact h2
      · norm_num
      · rw [sub_zero, abs_of_pos (by linarith)]; exact h1
    have key : c1.map (Check.eval fl sl) = List.replicate 9 false := by
      rw [e1]
      refine congrArg₂ List.cons ?_ (congrArg₂ List.cons ?_ (congrArg₂ List.cons ?_ (congrArg₂ List.cons ?_ (congrArg₂ List.cons ?_ (congrArg₂ List.cons ?_ (congrArg₂ List.cons ?_ (congrArg₂ List.cons ?_ (congrArg₂ List.cons ?_ rfl))))))))
      · rfl
      · rfl
      · exact far (x := 225.256) (by norm_num) (by norm_num)
      · exact far (x := 12.34) (by norm_num) (by norm_num)
      · show Check.eval fl sl (.fcmp 1 0) = false
        rw [one_eq]
        exact far (x := 1) (by norm_num) (by norm_num)
      · exact far (x := 0.02) (by norm_num) (by norm_num)
      · exact far (x := 1.2) (by norm_num) (by norm_num)
      · exact far (x := 0.2) (by norm_num) (by norm_num)
      · exact far (x := 0.3) (by norm_num) (by norm_num)
    rw [List.map_append, List.count_append, (count_all h h' s2 n2).1, key]
    rfl

/-! ## robustness -/

/-- all checks succeed, and would with any numbers that differ from those compared by at most 1e-12 -/
def Robust (fl sl : ℝ → ℝ) (l : List Check) : Prop := ∀ l', List.Forall₂ CheckNear l l' → ∀ c ∈ l', c.eval fl sl = true

theorem sure_robust (h : NearestF 53 1074 fl) (h' : NearestF 24 149 sl) {l : List Check} (hs : ∀ c ∈ l, Sure c) : Robust fl sl l := by
  intro l' hl c hc
  have e := sure_list h h' hs hl
  have : c.eval fl sl ∈ l'.map (Check.eval fl sl) := List.mem_map_of_mem hc
  rw [e] at this
  exact List.eq_of_mem_replicate this

/-- C135: the results do not depend on rounding errors of the functions that are tested, as long as these are smaller than 1e-12; the
only check about which this is not said is the last one of initialTrackTest, which compares the same expression with itself. -/
theorem C135_robust (h : NearestF 53 1074 fl) (h' : NearestF 24 149 sl) :
    (∃ l, tpsimpleChecks = .ok l ∧ Robust fl sl l) ∧ Robust fl sl constantbfieldChecks ∧ Robust fl sl (spacevectorsChecks sl 0) ∧
    (∃ l, intersectionChecks = .ok l ∧ Robust fl sl l) ∧ (∃ l r, resultTestRun 0 = .ok (l, r) ∧ Robust fl sl l) ∧
    (∃ l, helixChecks = .ok l ∧ Robust fl sl l) ∧
    (∃ l t, initialTrackChecks sl = .ok (l ++ [.fcmp t t]) ∧ Robust fl sl l) ∧
    ∃ l, finalTrackChecks sl = .ok l ∧ Robust fl sl l := by
  obtain ⟨l1, e1, -, s1⟩ := tpsimple_sure
  obtain ⟨l5, e5, -, s5⟩ := intersection_sure
  obtain ⟨l6, r6, e6, -, s6⟩ := result_sure
  obtain ⟨l7, e7, -, s7⟩ := helix_sure
  obtain ⟨l8, t, e8, -, s8, -⟩ := initial_sure h'
  obtain ⟨l9, e9, -, s9⟩ := final_sure h'
  exact ⟨⟨l1, e1, sure_robust h h' s1⟩, sure_robust h h' constantbfield_sure.2, sure_robust h h' (spacevectors_sure h'),
    ⟨l5, e5, sure_robust h h' s5⟩, ⟨l6, r6, e6, sure_robust h h' s6⟩, ⟨l7, e7, sure_robust h h' s7⟩, ⟨l8, _, e8, sure_robust h h' s8⟩,
    l9, e9, sure_robust h h' s9⟩

/-- C135, concrete case: 9.9999999999995 in place of the radius 10 is accepted. -/
example (h : NearestF 53 1074 fl) (h' : NearestF 24 149 sl) :
    Check.eval fl sl (.fcmp (fin (10 - 5 / 10 ^ 13)) (fin 10)) = true := by
  refine sure_robust h h' (l := [.fcmp (fin 10) (fin 10)]) ?_ [.fcmp (fin (10 - 5 / 10 ^ 13)) (fin 10)] ?_ _ (by simp)
  · intro c hc
    rw [List.mem_singleton] at hc
    subst hc
    exact ⟨10, 10, rfl, rfl, self_10⟩
  · refine List.Forall₂.cons ⟨10, 10 - 5 / 10 ^ 13, 10, 10, rfl, rfl, rfl, rfl, ?_, ?_⟩ List.Forall₂.nil
    · rw [abs_le]; constructor <;> norm_num
    · rw [sub_self, _root_.abs_zero]; norm_num

end Verif
