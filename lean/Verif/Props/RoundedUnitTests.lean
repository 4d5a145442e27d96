import Verif.Lemmas.RoundedUnitMatrix
import Verif.Lemmas.RoundedUnitTracks
import Verif.Lemmas.RoundedUnitHelix
import Verif.Props.UnitTestPrograms
import Verif.Props.RoundedConversion

/-!
# The program of unit tests in double precision: C171
-/

open Classical

noncomputable section

namespace Verif

open Dbl Rnd UT RUT

variable {A : TestLib}

theorem count_passed {l : List Check} {n : ℕ} (hs : Passed A l) (hn : l.length = n) :
    (l.map (Check.eval A.fl A.sl)).count false = 0 ∧ (l.map (Check.eval A.fl A.sl)).count true = n := by
  have : l.map (Check.eval A.fl A.sl) = List.replicate n true :=
    List.eq_replicate_iff.2 ⟨by rw [List.length_map, hn], fun b hb => by
      obtain ⟨c, hc, rfl⟩ := List.mem_map.1 hb
      exact hs c hc⟩
  rw [this]
  simp [List.count_replicate]

set_option maxRecDepth 10000 in
/-- the fails and successes of matrixOps in the first and in each further run, with rounding -/
theorem C171_matrixOps_false (hA : A.Ok) :
    (((matrixOpsChecks A 0).map (Check.eval A.fl A.sl)).count false = 24 ∧ ((matrixOpsChecks A 0).map (Check.eval A.fl A.sl)).count true = 126) ∧
    ∀ n, (((matrixOpsChecks A (n + 1)).map (Check.eval A.fl A.sl)).count false = 49 ∧
      ((matrixOpsChecks A (n + 1)).map (Check.eval A.fl A.sl)).count true = 101) := by
  refine ⟨?_, fun n => ?_⟩
  · have : (matrixOpsChecks A 0).map (Check.eval A.fl A.sl) = expected true := RUT.matrixOps_checks hA true fun i j => rfl
    rw [this]
    decide
  · have : (matrixOpsChecks A (n + 1)).map (Check.eval A.fl A.sl) = expected false :=
      RUT.matrixOps_checks hA false fun i j => RUT.matrixOps_state n i j
    rw [this]
    decide

/-- The tests can be made in double precision, and the numbers of fails and successes of each in its first run are known. -/
theorem rounded_first (hA : A.Ok) : ∃ ts, RUT.simpleTests A = .ok ts ∧ (∀ t ∈ ts, t.runs = 0) ∧
    ts.map firstRun = [(0, 175), (0, 15), (24, 126), (0, 21), (0, 16), (0, 18), (0, 16), (0, 32), (0, 30)] := by
  obtain ⟨l1, e1, n1, s1⟩ := tpsimple_ok hA
  obtain ⟨n2, s2⟩ := constantbfield_ok hA
  have s4 := spacevectors_ok hA
  obtain ⟨l5, e5, n5, s5⟩ := intersection_ok hA
  obtain ⟨l6, r6, e6, n6, s6⟩ := result_ok hA
  obtain ⟨l7, e7, n7, s7⟩ := helix_ok hA
  obtain ⟨l8, e8, n8, s8⟩ := initial_ok hA
  obtain ⟨l9, e9, n9, s9⟩ := final_ok hA
  rw [RUT.simpleTests, e1, Out.ok_bind, e5, Out.ok_bind, e6, Out.ok_bind, e7, Out.ok_bind, e8, Out.ok_bind, e9, Out.ok_bind, Out.pure_eq]
  refine ⟨_, rfl, ?_, ?_⟩
  · intro t ht
    simp only [List.mem_cons, List.not_mem_nil, or_false] at ht
    rcases ht with rfl | rfl | rfl | rfl | rfl | rfl | rfl | rfl | rfl <;> rfl
  · have c1 := count_passed s1 n1
    have c2 := count_passed s2 n2
    have c3 := (C171_matrixOps_false hA).1
    have c4 := count_passed (n := 21) s4 rfl
    have c5 := count_passed s5 n5
    have c6 := count_passed s6 n6
    have c7 := count_passed s7 n7
    have c8 := count_passed s8 n8
    have c9 := count_passed s9 n9
    have f : ∀ {t : Test} {a b : ℕ}, (nextChecks t).count false = a ∧ (nextChecks t).count true = b → firstRun t = (a, b) :=
      fun {_ _ _} e => Prod.ext e.1 e.2
    simp only [List.map_cons, List.map_nil]
    refine congrArg₂ List.cons (f c1) (congrArg₂ List.cons (f c2) (congrArg₂ List.cons (f c3) (congrArg₂ List.cons (f c4)
      (congrArg₂ List.cons (f c5) (congrArg₂ List.cons (f c6) (congrArg₂ List.cons (f c7) (congrArg₂ List.cons (f c8)
      (congrArg₂ List.cons (f c9) rfl))))))))

/-- C171 is false as stated: with every rounding the program reports 24 fails (all of matrixOps), and returns 0 to the system. -/
theorem C171_false (nd : Bool) (hA : A.Ok) : RUT.program A nd = .ok (some (24, 449), 0) := by
  obtain ⟨ts, e, -, f⟩ := rounded_first hA
  obtain ⟨r, k⟩ := C124_printed_partial nd ts
  obtain ⟨o, k'⟩ := C124_exit_false nd ts
  have a : ts.map (fun t => ((nextChecks t).count false : ℤ)) = (ts.map firstRun).map fun p => (p.1 : ℤ) := by
    rw [List.map_map]; rfl
  have b : ts.map (fun t => ((nextChecks t).count true : ℤ)) = (ts.map firstRun).map fun p => (p.2 : ℤ) := by
    rw [List.map_map]; rfl
  rw [a, b, f] at k
  rw [RUT.program, e, Out.ok_bind, k]
  rw [k] at k'
  simp only [Out.ok.injEq, Prod.mk.injEq] at k'
  rw [k'.2]
  rfl

/-- C171 (partial): all tests can be made, and the checks of all tests except matrixOps succeed in the first run, however the results of
the operations and of the library functions are rounded.  Missing: matrixOps (C171_matrixOps_false) and further runs (C171_again_false). -/
theorem C171_others_partial (hA : A.Ok) : ∃ ts, RUT.simpleTests A = .ok ts ∧ ts.length = 9 ∧
    ∀ i (hi : i < ts.length), i ≠ 2 → ∀ c ∈ ts[i].checks 0, c = true := by
  obtain ⟨ts, e, r, f⟩ := rounded_first hA
  have hl : ts.length = 9 := by
    have := congrArg List.length f
    simpa using this
  refine ⟨ts, e, hl, ?_⟩
  intro i hi i2 c hc
  have g : firstRun ts[i] = (ts.map firstRun)[i]'(by simpa using hi) := by simp
  have z : (firstRun ts[i]).1 = 0 := by
    rw [g]
    simp only [f]
    have : i = 0 ∨ i = 1 ∨ i = 3 ∨ i = 4 ∨ i = 5 ∨ i = 6 ∨ i = 7 ∨ i = 8 := by omega
    rcases this with rfl | rfl | rfl | rfl | rfl | rfl | rfl | rfl <;> rfl
  have z' : false ∉ ts[i].checks 0 := by
    rw [← r _ (List.getElem_mem hi)]
    exact List.count_eq_zero.1 z
  cases c with
  | true => rfl
  | false => exact absurd hc z'

/-- the program does the same in double precision as with exact numbers -/
theorem C171_exact (nd : Bool) (hA : A.Ok) : RUT.program A nd = UT.program nd A.fl A.sl := by
  rw [C171_false nd hA, C134_false nd hA.fl hA.sl]

/-! ## further runs -/

/-- a check of two different numbers fails -/
theorem eval_far (hA : A.Ok) {a b : Dbl} {x y : ℝ} (ha : N a x (1 / 1000)) (hb : N b y (1 / 1000)) (hx : |x| ≤ 900) (hy : |y| ≤ 900)
    (hxy : 1 / 100 ≤ |x - y|) : Check.eval A.fl A.sl (.fcmp a b) = false := by
  obtain ⟨r, rfl, hr⟩ := ha
  obtain ⟨s, rfl, hs⟩ := hb
  have k1 : |r| ≤ |r - x| + |x| := by simpa using abs_add_le (r - x) x
  have k2 : |s| ≤ |s - y| + |y| := by simpa using abs_add_le (s - y) y
  have k3 : |x - y| ≤ |r - x| + |r - s| + |s - y| := by
    have := abs_add_three (x - r) (r - s) (s - y)
    rw [show x - r + (r - s) + (s - y) = x - y by ring, abs_sub_comm x r] at this
    exact this
  exact fcmp_far hA.fl hA.sl (by linarith) (by linarith) (by linarith)

theorem rounded_spacevectors_later (n : ℕ) : RUT.spacevectorsState A (n + 1) = ⟨dec A 3.1, dec A 2.7, (RUT.spaceF A).z⟩ := by
  induction n with
  | zero => rfl
  | succ n ih => rw [RUT.spacevectorsState, ih]; rfl

/-- the object of resultTest after a run -/
def rounded_after (A : TestLib) : FitResults := ⟨true, dec A 225.256, 64, dec A 12.34, ⟨unitM, ![1, dec A 0.02, dec A 1.2, dec A 0.2, dec A 0.3], rp⟩⟩

/-- C171 is false also in this respect: in a second and any further run 5 checks of spacevectors and 9 checks of resultTest fail. -/
theorem C171_again_false (hA : A.Ok) (n : ℕ) :
    ((RUT.spacevectorsChecks A (n + 1)).map (Check.eval A.fl A.sl)).count false = 5 ∧
    ∃ l r, RUT.resultTestRun A (n + 1) = .ok (l, r) ∧ (l.map (Check.eval A.fl A.sl)).count false = 9 := by
  have li : ∀ {x : ℝ}, |x| ≤ 200 → N (dec A x) x (1 / 1000) := fun hx => (N.lit hA.fl hx).mono (by norm_num)
  refine ⟨?_, ?_⟩
  · have ev := spacevectors_ok hA
    have lt : ∀ i, i < 21 → i < (RUT.spacevectorsChecks A 0).length := fun i hi => hi
    have a1 : Check.eval A.fl A.sl (.fcmp (dec A 3.1) (RUT.spaceF A).x) = false := by
      rw [spaceF_eq hA]
      refine eval_far hA (li (by norm_num)) ((N.of _).mono (by norm_num)) ?_ ?_ ?_ <;> norm_num
    have a2 : Check.eval A.fl A.sl (.fcmp (dec A 2.7) (RUT.spaceF A).y) = false := by
      rw [spaceF_eq hA]
      refine eval_far hA (li (by norm_num)) ((N.of _).mono (by norm_num)) ?_ ?_ ?_ <;> norm_num
    have a3 : Check.eval A.fl A.sl (.fcmp (rhoV A.fl ⟨dec A 3.1, dec A 2.7, (RUT.spaceF A).z⟩) (dec A 0.22360679774997896964)) = false := by
      have u0 : Real.sqrt (3.1 * 3.1 + 2.7 * 2.7) ^ 2 = 3.1 * 3.1 + 2.7 * 2.7 := Real.sq_sqrt (by norm_num)
      have u1 : 1 ≤ Real.sqrt (3.1 * 3.1 + 2.7 * 2.7) := Real.le_sqrt_of_sq_le (by norm_num)
      have u2 : Real.sqrt (3.1 * 3.1 + 2.7 * 2.7) ≤ 8 := Real.sqrt_le_iff.2 (by norm_num)
      generalize Real.sqrt (3.1 * 3.1 + 2.7 * 2.7) = q at *
      have t := trans_near hA (v := ⟨dec A 3.1, dec A 2.7, (RUT.spaceF A).z⟩) (d := 3 / 10 ^ 14) (N.lit hA.fl (x := 3.1) (by norm_num))
        (N.lit hA.fl (x := 2.7) (by norm_num)) (by norm_num) (by norm_num) (by norm_num) (by norm_num) u0 (by linarith) u2
      refine eval_far hA (x := q) (y := 0.22360679774997896964) (t.mono (by norm_num)) (li (by norm_num)) ?_ (by norm_num) ?_
      · rw [abs_of_pos (by linarith)]; linarith
      · rw [abs_of_pos] <;> (norm_num; linarith)
    have key : (RUT.spacevectorsChecks A (n + 1)).map (Check.eval A.fl A.sl) =
        [true, true, true, false, false, true, false, false, true, true, true, true, true, true, true, true, false, true, true, true, true] := by
      rw [RUT.spacevectorsChecks, rounded_spacevectors_later]
      refine congrArg₂ List.cons ?_ (congrArg₂ List.cons ?_ (congrArg₂ List.cons ?_ (congrArg₂ List.cons ?_ (congrArg₂ List.cons ?_ (congrArg₂ List.cons ?_ (congrArg₂ List.cons ?_ (congrArg₂ List.cons ?_ (congrArg₂ List.cons ?_ (congrArg₂ List.cons ?_ (congrArg₂ List.cons ?_ (congrArg₂ List.cons ?_ (congrArg₂ List.cons ?_ (congrArg₂ List.cons ?_ (congrArg₂ List.cons ?_ (congrArg₂ List.cons ?_ (congrArg₂ List.cons ?_ (congrArg₂ List.cons ?_ (congrArg₂ List.cons ?_ (congrArg₂ List.cons ?_ (congrArg₂ List.cons ?_ rfl))))))))))))))))))))
      · exact ev _ (List.mem_iff_getElem.2 ⟨0, lt _ (by norm_num), rfl⟩)
      · exact ev _ (List.mem_iff_getElem.2 ⟨1, lt _ (by norm_num), rfl⟩)
      · exact ev _ (List.mem_iff_getElem.2 ⟨2, lt _ (by norm_num), rfl⟩)
      · exact a1
      · exact a2
      · exact ev _ (List.mem_iff_getElem.2 ⟨5, lt _ (by norm_num), rfl⟩)
      · exact a1
      · exact a2
      · exact ev _ (List.mem_iff_getElem.2 ⟨8, lt _ (by norm_num), rfl⟩)
      · exact ev _ (List.mem_iff_getElem.2 ⟨9, lt _ (by norm_num), rfl⟩)
      · exact ev _ (List.mem_iff_getElem.2 ⟨10, lt _ (by norm_num), rfl⟩)
      · exact ev _ (List.mem_iff_getElem.2 ⟨11, lt _ (by norm_num), rfl⟩)
      · exact ev _ (List.mem_iff_getElem.2 ⟨12, lt _ (by norm_num), rfl⟩)
      · exact ev _ (List.mem_iff_getElem.2 ⟨13, lt _ (by norm_num), rfl⟩)
      · exact ev _ (List.mem_iff_getElem.2 ⟨14, lt _ (by norm_num), rfl⟩)
      · exact ev _ (List.mem_iff_getElem.2 ⟨15, lt _ (by norm_num), rfl⟩)
      · exact a3
      · exact ev _ (List.mem_iff_getElem.2 ⟨17, lt _ (by norm_num), rfl⟩)
      · exact ev _ (List.mem_iff_getElem.2 ⟨18, lt _ (by norm_num), rfl⟩)
      · exact ev _ (List.mem_iff_getElem.2 ⟨19, lt _ (by norm_num), rfl⟩)
      · exact ev _ (List.mem_iff_getElem.2 ⟨20, lt _ (by norm_num), rfl⟩)
    rw [key]
    rfl
  · have step : ∀ fR, ∃ c2 : List Check, RUT.resultTestStep A fR = .ok ([.holds (fR.valid == false), .holds (fR.ndf == 0), .fcmp fR.chisquare 0,
        .fcmp fR.lostweight 0, .fcmp (fR.estParams.hp 0) 0, .fcmp (fR.estParams.hp 1) 0, .fcmp (fR.estParams.hp 2) 0,
        .fcmp (fR.estParams.hp 3) 0, .fcmp (fR.estParams.hp 4) 0] ++ c2, rounded_after A) ∧ (c2.map (Check.eval A.fl A.sl)).count false = 0 := by
      intro fR
      obtain ⟨l, r, e, -, p⟩ := result_ok hA
      rw [RUT.resultTestRun, RUT.resultTestStep, cm_ok, Out.ok_bind, RUT.hp_ok, Out.ok_bind, Out.pure_eq, Out.ok.injEq, Prod.mk.injEq] at e
      rw [RUT.resultTestStep, cm_ok, Out.ok_bind, RUT.hp_ok, Out.ok_bind, Out.pure_eq]
      refine ⟨_, rfl, (count_passed (l := _) ?_ rfl).1⟩
      intro c hc
      refine p c ?_
      rw [← e.1]
      exact List.mem_append_right _ hc
    have st : ∀ n, ∃ l, RUT.resultTestRun A n = .ok (l, rounded_after A) := by
      intro n
      induction n with
      | zero =>
        obtain ⟨c2, e, -⟩ := step FitResults.default
        exact ⟨_, e⟩
      | succ n ih =>
        obtain ⟨l, e⟩ := ih
        obtain ⟨c2, e', -⟩ := step (rounded_after A)
        exact ⟨_, by rw [RUT.resultTestRun, e, Out.ok_bind]; exact e'⟩
    obtain ⟨l, e⟩ := st n
    obtain ⟨c2, e', s2⟩ := step (rounded_after A)
    refine ⟨_, rounded_after A, by rw [RUT.resultTestRun, e, Out.ok_bind]; exact e', ?_⟩
    have z : N (0 : Dbl) 0 (1 / 1000) := by rw [zero_eq]; exact (N.of 0).mono (by norm_num)
    have o : N (1 : Dbl) 1 (1 / 1000) := by rw [one_eq]; exact (N.of 1).mono (by norm_num)
    have big : N (dec A 225.256) 225.256 (1 / 1000) := by
      have e1 := err_double hA.fl 225.256
      have t := tiny1075
      refine ⟨A.fl 225.256, rnd_double hA.fl ?_, ?_⟩
      · have : (2 : ℝ) ^ 8 ≤ 2 ^ 1000 := pow_le_pow_right₀ (by norm_num) (by norm_num)
        exact le_trans (by norm_num) this
      · generalize (1 : ℝ) / 2 ^ 1075 = η at *
        rw [abs_of_pos (by norm_num : (0 : ℝ) < 225.256)] at e1
        norm_num at *
        linarith
    have far : ∀ {a : Dbl} {x : ℝ}, N a x (1 / 1000) → 1 / 100 ≤ x → x ≤ 900 → Check.eval A.fl A.sl (.fcmp a 0) = false := by
      intro a x ha h1 h2
      refine eval_far hA ha z ?_ (by norm_num) ?_
      · rw [abs_of_pos (by linarith)]; exact h2
      · rw [sub_zero, abs_of_pos (by linarith)]; exact h1
    rw [List.map_append, List.count_append, s2]
    have key : List.map (Check.eval A.fl A.sl) [.holds ((rounded_after A).valid == false), .holds ((rounded_after A).ndf == 0), .fcmp (rounded_after A).chisquare 0,
        .fcmp (rounded_after A).lostweight 0, .fcmp ((rounded_after A).estParams.hp 0) 0, .fcmp ((rounded_after A).estParams.hp 1) 0, .fcmp ((rounded_after A).estParams.hp 2) 0,
        .fcmp ((rounded_after A).estParams.hp 3) 0, .fcmp ((rounded_after A).estParams.hp 4) 0] = List.replicate 9 false := by
      refine congrArg₂ List.cons ?_ (congrArg₂ List.cons ?_ (congrArg₂ List.cons ?_ (congrArg₂ List.cons ?_ (congrArg₂ List.cons ?_ (congrArg₂ List.cons ?_ (congrArg₂ List.cons ?_ (congrArg₂ List.cons ?_ (congrArg₂ List.cons ?_ rfl))))))))
      · rfl
      · rfl
      · exact far big (by norm_num) (by norm_num)
      · exact far (li (x := 12.34) (by norm_num)) (by norm_num) (by norm_num)
      · exact far o (by norm_num) (by norm_num)
      · exact far (li (x := 0.02) (by norm_num)) (by norm_num) (by norm_num)
      · exact far (li (x := 1.2) (by norm_num)) (by norm_num) (by norm_num)
      · exact far (li (x := 0.2) (by norm_num)) (by norm_num) (by norm_num)
      · exact far (li (x := 0.3) (by norm_num)) (by norm_num) (by norm_num)
    rw [key]
    rfl

/-- There are such roundings and such a library: the hypotheses of C171 are met. -/
theorem exists_testLib : ∃ A : TestLib, A.Ok := by
  obtain ⟨fl, h⟩ := exists_nearestF 53 1074
  obtain ⟨sl, h'⟩ := exists_nearestF 24 149
  obtain ⟨atn, -, mm, ha, -, -, hm⟩ := exists_library h
  exact ⟨⟨fl, sl, ⟨Real.sin, Real.cos⟩, ratan2, atn, mm, fun a x i => mm a (fun k _ => x k) i 0⟩,
    { fl := h
      sl := h'
      lm := ⟨fun x => by rw [sub_self, _root_.abs_zero]; positivity, fun x => by rw [sub_self, _root_.abs_zero]; positivity⟩
      at2 := fun y x _ => by rw [sub_self, _root_.abs_zero]; positivity
      atn := ha
      mm := hm
      mv := fun a x i => hm a (fun k _ => x k) i 0
      sin0 := Real.sin_zero
      at20 := fun x hx => by
        show Complex.arg (x : ℂ) = 0
        exact Complex.arg_ofReal_of_nonneg hx.le }⟩

example : ∃ A, RUT.program A true = .ok (some (24, 449), 0) ∧ RUT.program A false = .ok (some (24, 449), 0) := by
  obtain ⟨A, hA⟩ := exists_testLib
  exact ⟨A, C171_false true hA, C171_false false hA⟩

end Verif
