import Verif.Model.UnitTests
import Mathlib.Data.List.Nodup
import Mathlib.Algebra.BigOperators.Group.List.Basic

/-!
# The framework of the unit tests: C121 - C124
-/

open Classical

noncomputable section

namespace Verif

open UT

/-- the suite consists of the different tests `as`, which exist -/
structure Suits (m : Mem) (s : Suite) (as : List ℕ) (ts : ℕ → Test) : Prop where
  tests : s.tests = as.map some
  nodup : as.Nodup
  live : ∀ a ∈ as, m a = some (ts a)

theorem assert_some (nd : Bool) (a : ℕ) : assertNonnull nd (some a) = .ok () := by
  cases nd <;> simp [assertNonnull]

theorem deref_live {m : Mem} {a : ℕ} {t : Test} (h : m a = some t) : deref m (some a) = .ok (a, t) := by
  simp [deref, h]

theorem forTests_ok (nd : Bool) (f : Test → Test) (ts : ℕ → Test) : ∀ (as : List ℕ) (m : Mem), as.Nodup → (∀ a ∈ as, m a = some (ts a)) →
    forTests nd f m (as.map some) = .ok fun b => if b ∈ as then some (f (ts b)) else m b := by
  intro as
  induction as with
  | nil => intro m _ _; simp [forTests]
  | cons a as ih =>
    intro m hn hl
    rw [List.nodup_cons] at hn
    rw [List.map_cons, forTests, assert_some, Out.ok_bind, deref_live (hl a (by simp)), Out.ok_bind]
    simp only
    rw [ih _ hn.2]
    · congr 1
      funext b
      by_cases hb : b ∈ as
      · have : b ≠ a := fun e => hn.1 (e ▸ hb)
        simp [hb]
      · by_cases e : b = a
        · subst e; simp [hb, Mem.put]
        · simp [hb, e, Mem.put]
    · intro b hb
      have : b ≠ a := fun e => hn.1 (e ▸ hb)
      simp only [Mem.put, this, if_false]
      exact hl b (by simp [hb])

theorem sumTests_ok (nd : Bool) (f : Test → ℤ) (ts : ℕ → Test) (m : Mem) : ∀ (as : List ℕ) (tot : ℤ), (∀ a ∈ as, m a = some (ts a)) →
    sumTests nd f m tot (as.map some) = .ok (tot + (as.map fun a => f (ts a)).sum) := by
  intro as
  induction as with
  | nil => intro tot _; simp [sumTests]
  | cons a as ih =>
    intro tot hl
    rw [List.map_cons, sumTests, assert_some, Out.ok_bind, deref_live (hl a (by simp)), Out.ok_bind]
    simp only
    rw [ih _ (fun b hb => hl b (by simp [hb])),
      List.map_cons, List.sum_cons, add_assoc]

theorem foldl_doTest (l : List Bool) : ∀ t : Test, (l.foldl Test.doTest t).nFail = t.nFail + l.count false ∧
    (l.foldl Test.doTest t).nPass = t.nPass + l.count true ∧ (l.foldl Test.doTest t).checks = t.checks ∧
    (l.foldl Test.doTest t).stream = t.stream := by
  induction l with
  | nil => intro t; simp
  | cons b l ih =>
    intro t
    obtain ⟨h1, h2, h3, h4⟩ := ih (t.doTest b)
    rw [List.foldl_cons, h1, h2, h3, h4]
    cases b <;> simp [Test.doTest, Test.doFail, Test.succeed] <;> ring

/-- the checks made by the next run of a test -/
def nextChecks (t : Test) : List Bool := t.checks t.runs

theorem reset_run (t : Test) : t.reset.run = { t with nPass := (nextChecks t).count true, nFail := (nextChecks t).count false, runs := t.runs + 1 } := by
  obtain ⟨h1, h2, h3, h4⟩ := foldl_doTest (nextChecks t) t.reset
  have e : t.reset.run = { (nextChecks t).foldl Test.doTest t.reset with runs := t.runs + 1 } := rfl
  rw [e]
  have : ∀ x y : Test, x.nFail = y.nFail → x.nPass = y.nPass → x.checks = y.checks → x.stream = y.stream → x.runs = y.runs → x = y := by
    rintro ⟨⟩ ⟨⟩ rfl rfl rfl rfl rfl; rfl
  refine this _ _ ?_ ?_ h3 h4 rfl
  · show ((nextChecks t).foldl Test.doTest t.reset).nFail = _
    rw [h1]; simp [Test.reset]
  · show ((nextChecks t).foldl Test.doTest t.reset).nPass = _
    rw [h2]; simp [Test.reset]

/-- C121 (partial): if all tests of the suite are different, each of them is run once, the counters of a test are the numbers of
its checks that fail and succeed, whatever they were before, no other object changes, and the numbers reported are the sums.
Missing: suites that contain a test more than once, for which the claim is false (C121_twice_false). -/
theorem C121_report_partial (nd : Bool) {m : Mem} {s : Suite} {as : List ℕ} {ts : ℕ → Test} (h : Suits m s as ts) :
    ∃ m', s.run nd m = .ok m' ∧
      (∀ a ∈ as, m' a = some { ts a with
        nPass := (nextChecks (ts a)).count true, nFail := (nextChecks (ts a)).count false, runs := (ts a).runs + 1 }) ∧
      (∀ a, a ∉ as → m' a = m a) ∧
      s.getNumFailed nd m' = .ok (as.map fun a => ((nextChecks (ts a)).count false : ℤ)).sum ∧
      s.getNumPassed nd m' = .ok (as.map fun a => ((nextChecks (ts a)).count true : ℤ)).sum ∧
      ∃ out, s.report nd m' = .ok (out, (as.map fun a => ((nextChecks (ts a)).count false : ℤ)).sum) ∧
        (s.stream = true → out = some ((as.map fun a => ((nextChecks (ts a)).count false : ℤ)).sum,
          (as.map fun a => ((nextChecks (ts a)).count true : ℤ)).sum)) ∧ (s.stream = false → out = none) := by
  obtain ⟨h1, h2, h3⟩ := h
  have e1 := forTests_ok nd Test.reset ts as m h2 h3
  have e2 := forTests_ok nd Test.run (fun a => (ts a).reset) as (fun b => if b ∈ as then some (ts b).reset else m b) h2
    (fun a ha => by simp [ha])
  have hm : ∀ a ∈ as, (fun b => if b ∈ as then some (ts b).reset.run else if b ∈ as then some (ts b).reset else m b) a =
      some ((ts a).reset.run) := fun a ha => by simp [ha]
  have f1 := sumTests_ok nd Test.nFail (fun a => (ts a).reset.run) _ as 0 hm
  have f2 := sumTests_ok nd Test.nPass (fun a => (ts a).reset.run) _ as 0 hm
  simp only [reset_run, zero_add] at f1 f2
  have er : s.run nd m = .ok (fun b => if b ∈ as then some (ts b).reset.run else if b ∈ as then some (ts b).reset else m b) := by
    simp only [Suite.run, Suite.reset, h1]
    rw [e1, Out.ok_bind, e2]
  refine ⟨_, er, ?_, ?_, ?_, ?_, ?_⟩
  · intro a ha
    simp only [ha, if_true]
    rw [reset_run]
  · intro a ha
    simp only [ha, if_false]
  · simp only [Suite.getNumFailed, h1, reset_run, f1]
  · simp only [Suite.getNumPassed, h1, reset_run, f2]
  · cases hs : s.stream with
    | true =>
      refine ⟨_, ?_, fun _ => rfl, fun h => absurd h (by decide)⟩
      simp only [Suite.report, h1, hs, reset_run, f1, f2, if_true, Out.ok_bind, Out.pure_eq]
    | false =>
      refine ⟨_, ?_, fun h => absurd h (by decide), fun _ => rfl⟩
      simp only [Suite.report, Suite.getNumFailed, h1, hs, reset_run, f1, Out.ok_bind, Out.pure_eq]
      rfl

/-- a test with one check, which fails -/
def Example.failing : Test := ⟨true, 0, 0, 0, fun _ => [false]⟩

/-- a test with three checks of which one fails, run twice before -/
def Example.mixed : Test := ⟨false, 7, 5, 2, fun n => if n = 2 then [true, false, true] else []⟩

/-- C121, concrete case: two tests. -/
example : Suits (fun a => if a = 3 then some Example.failing else if a = 5 then some Example.mixed else none) ⟨true, [some 3, some 5]⟩ [3, 5]
    (fun a => if a = 3 then Example.failing else Example.mixed) ∧ nextChecks Example.mixed = [true, false, true] := by
  refine ⟨⟨rfl, by decide, ?_⟩, by simp [nextChecks, Example.mixed]⟩
  intro a ha
  simp at ha
  rcases ha with rfl | rfl <;> simp

/-- C121 is false as stated: a test that is added twice is run twice, its counter then counts both runs, and it is added twice to the
sum: 4 fails are reported when 2 checks have failed. -/
theorem C121_twice_false : ∃ (m : Mem) (s : Suite), m 0 = some Example.failing ∧ s.tests = [some 0, some 0] ∧
    ∀ nd, ∃ m', s.run nd m = .ok m' ∧ s.report nd m' = .ok (some (4, 0), 4) := by
  refine ⟨fun _ => some Example.failing, ⟨true, [some 0, some 0]⟩, rfl, rfl, fun nd => ?_⟩
  cases nd
  · exact ⟨_, rfl, rfl⟩
  · exact ⟨_, rfl, rfl⟩

/-! ## addSuite -/

theorem addTest_ok {m : Mem} {s : Suite} {a : ℕ} {t : Test} (h : m a = some t) :
    addTest m s (some a) = .ok (m.put a (some { t with nPass := 0, nFail := 0, stream := t.stream || s.stream }),
      { s with tests := s.tests ++ [some a] }) := by
  have e : (if s.stream && !t.stream then { t with stream := true } else t).reset =
      { t with nPass := 0, nFail := 0, stream := t.stream || s.stream } := by
    obtain ⟨st, p, f, r, c⟩ := t
    cases st <;> cases hs : s.stream <;> simp [Test.reset]
  simp only [addTest, reduceCtorEq, if_false]
  rw [deref_live h, Out.ok_bind]
  simp only [e, Out.pure_eq]

/-- C122 (error branch): a null pointer cannot be added. -/
theorem C122_null (m : Mem) (s : Suite) : addTest m s none = .throw "UnitTestSuiteError" := rfl

/-- C122 (partial): the tests of the other suite are added in their order, with counters set to zero, and nothing else changes; if
assertions are not compiled, or this suite is not empty and its tests exist.  Missing: empty suites and a suite added to itself
(C122_empty_false, C122_self_false). -/
theorem C122_add_partial (nd : Bool) {m : Mem} {s o : Suite} {as : List ℕ} {ts : ℕ → Test} (ho : Suits m o as ts)
    (hs : nd = true ∨ (s.tests ≠ [] ∧ ∀ p ∈ s.tests, p ≠ none)) :
    ∃ m', addSuite nd m s o = .ok (m', { s with tests := s.tests ++ o.tests }) ∧
      (∀ a ∈ as, m' a = some { ts a with nPass := 0, nFail := 0, stream := (ts a).stream || s.stream }) ∧
      ∀ a, a ∉ as → m' a = m a := by
  obtain ⟨h1, h2, h3⟩ := ho
  have key : ∀ (as : List ℕ) (i : ℕ) (m : Mem) (s : Suite), as.Nodup → (∀ a ∈ as, m a = some (ts a)) →
      (nd = true ∨ (i < s.tests.length ∧ ∀ p ∈ s.tests, p ≠ none)) →
      ∃ m', addSuiteFrom nd i m s (as.map some) = .ok (m', { s with tests := s.tests ++ as.map some }) ∧
        (∀ a ∈ as, m' a = some { ts a with nPass := 0, nFail := 0, stream := (ts a).stream || s.stream }) ∧
        ∀ a, a ∉ as → m' a = m a := by
    intro as
    induction as with
    | nil => intro i m s _ _ _; exact ⟨m, by simp [addSuiteFrom], by simp, by simp⟩
    | cons a as ih =>
      intro i m s hn hl hi
      rw [List.nodup_cons] at hn
      have hc : assertIndex nd s.tests i = .ok () := by
        rcases hi with hi | ⟨hi, hp⟩
        · simp [assertIndex, hi]
        · rw [assertIndex, List.getElem?_eq_getElem hi]
          obtain ⟨b, hb⟩ := Option.ne_none_iff_exists'.1 (hp _ (List.getElem_mem hi))
          simp only [hb, assert_some]
          simp
      obtain ⟨m', e1, e2, e3⟩ := ih (i + 1) (m.put a (some { ts a with nPass := 0, nFail := 0, stream := (ts a).stream || s.stream }))
        { s with tests := s.tests ++ [some a] } hn.2 (fun b hb => by
          have : b ≠ a := fun e => hn.1 (e ▸ hb)
          simp only [Mem.put, this, if_false]
          exact hl b (by simp [hb])) (hi.imp_right fun h => ⟨by simpa using h.1, by
            intro p hp
            simp only [List.mem_append, List.mem_singleton] at hp
            rcases hp with hp | rfl
            · exact h.2 p hp
            · simp⟩)
      refine ⟨m', ?_, ?_, ?_⟩
      · rw [List.map_cons, addSuiteFrom, hc, Out.ok_bind, addTest_ok (hl a (by simp)), Out.ok_bind]
        simpa using e1
      · intro b hb
        by_cases e : b ∈ as
        · exact e2 b e
        · have : b = a := by simpa [e] using hb
          subst this
          rw [e3 _ e]
          simp [Mem.put]
      · intro b hb
        simp only [List.mem_cons, not_or] at hb
        rw [e3 b hb.2]
        simp [Mem.put, hb.1]
  have := key as 0 m s h2 h3 (hs.imp_right fun h => ⟨List.length_pos_iff.2 h.1, h.2⟩)
  rw [← h1] at this
  exact this

/-- C122 is false as stated with assertions: adding the tests of a suite to an empty suite reads a vector out of range. -/
theorem C122_empty_false {m : Mem} {s o : Suite} (hs : s.tests = []) (ho : o.tests ≠ []) : ∃ w, addSuite false m s o = .ub w := by
  obtain ⟨p, l, e⟩ := List.exists_cons_of_ne_nil ho
  refine ⟨"index out of range", ?_⟩
  simp [addSuite, e, addSuiteFrom, assertIndex, hs]

/-- C122 is false as stated for a suite that is added to itself: the call does not return. -/
theorem C122_self_false (nd : Bool) {m : Mem} {s : Suite} {as : List ℕ} {ts : ℕ → Test} (h : Suits m s as ts) (h0 : as ≠ []) :
    addSelf nd m s = .diverge := by
  have key : ∀ n, ∃ m' s', (addSelfStep nd)^[n] (.ok (0, m, s)) = .ok (n, m', s') ∧ n < s'.tests.length ∧
      ∀ p ∈ s'.tests, ∃ a t, p = some a ∧ m' a = some t := by
    intro n
    induction n with
    | zero =>
      refine ⟨m, s, rfl, ?_, ?_⟩
      · rw [h.tests, List.length_map]; exact List.length_pos_iff.2 h0
      · intro p hp
        rw [h.tests, List.mem_map] at hp
        obtain ⟨a, ha, rfl⟩ := hp
        exact ⟨a, ts a, rfl, h.live a ha⟩
    | succ n ih =>
      obtain ⟨m', s', e1, e2, e3⟩ := ih
      obtain ⟨a, t, e4, e5⟩ := e3 _ (List.getElem_mem e2)
      rw [Function.iterate_succ_apply', e1]
      have hc : assertIndex nd s'.tests n = .ok () := by
        rw [assertIndex, List.getElem?_eq_getElem e2]
        simp only [e4, assert_some]
        simp
      simp only [addSelfStep, hc, List.getElem?_eq_getElem e2, Out.ok_bind, e4, addTest_ok e5, Out.pure_eq]
      refine ⟨_, _, rfl, ?_, ?_⟩
      · simp only [List.length_append, List.length_cons, List.length_nil]; omega
      · intro p hp
        simp only [List.mem_append, List.mem_singleton] at hp
        have : ∃ b u, p = some b ∧ m' b = some u := by
          rcases hp with hp | rfl
          · exact e3 p hp
          · exact ⟨a, t, rfl, e5⟩
        obtain ⟨b, u, rfl, hb⟩ := this
        by_cases e : b = a
        · exact ⟨b, _, rfl, by simp only [Mem.put, e, if_true]; rfl⟩
        · exact ⟨b, u, rfl, by simp only [Mem.put, e, if_false]; exact hb⟩
  have : ¬∃ n, ¬addSelfCond ((addSelfStep nd)^[n] (.ok (0, m, s))) := by
    rintro ⟨n, hn⟩
    obtain ⟨m', s', e1, e2, -⟩ := key n
    rw [e1] at hn
    exact hn e2
  simp only [addSelf, whileLoop, dif_neg this]
  rfl

/-! ## free -/

/-- C123 (partial): `free` deletes each test of the suite once and nothing else, and sets all pointers to null, if all tests are
different and exist; another call has no effect.  Missing: tests that are shared (C123_shared_false). -/
theorem C123_free_partial {m : Mem} {s : Suite} {as : List ℕ} {ts : ℕ → Test} (h : Suits m s as ts) :
    ∃ m' s', s.free m = .ok (m', s') ∧ (∀ a ∈ as, m' a = none) ∧ (∀ a, a ∉ as → m' a = m a) ∧
      s'.tests = as.map (fun _ => none) ∧ s'.free m' = .ok (m', s') := by
  obtain ⟨h1, h2, h3⟩ := h
  have key : ∀ (as : List ℕ) (m : Mem), as.Nodup → (∀ a ∈ as, m a = some (ts a)) →
      UT.free m (as.map some) = .ok fun b => if b ∈ as then none else m b := by
    intro as
    induction as with
    | nil => intro m _ _; simp [UT.free]
    | cons a as ih =>
      intro m hn hl
      rw [List.nodup_cons] at hn
      simp only [List.map_cons, UT.free, hl a (by simp)]
      rw [ih _ hn.2]
      · congr 1
        funext b
        by_cases hb : b ∈ as
        · simp [hb]
        · by_cases e : b = a
          · subst e; simp [hb, Mem.put]
          · simp [hb, e, Mem.put]
      · intro b hb
        have : b ≠ a := fun e => hn.1 (e ▸ hb)
        simp only [Mem.put, this, if_false]
        exact hl b (by simp [hb])
  have nul : ∀ (l : List ℕ) (m : Mem), UT.free m (l.map fun _ => none) = .ok m := by
    intro l m
    induction l with
    | nil => rfl
    | cons a l ih => simpa [UT.free] using ih
  refine ⟨fun b => if b ∈ as then none else m b, { s with tests := as.map fun _ => none }, ?_, ?_, ?_, rfl, ?_⟩
  · simp only [Suite.free, h1]
    rw [key as m h2 h3, Out.ok_bind]
    simp [Function.comp_def]
  · intro a ha; simp [ha]
  · intro a ha; simp [ha]
  · simp only [Suite.free]
    rw [nul, Out.ok_bind]
    simp

/-- C123 is false as stated: a suite whose tests have been deleted cannot be run; with assertions the program ends, without them a
null pointer is used. -/
theorem C123_after_false {m m' : Mem} {s s' : Suite} (h0 : s.tests ≠ []) (h : s.free m = .ok (m', s')) :
    s'.run false m' = .throw "abort" ∧ s'.run true m' = .ub "null pointer" ∧
      s'.getNumFailed false m' = .throw "abort" ∧ s'.getNumFailed true m' = .ub "null pointer" := by
  rw [Suite.free, Out.bind_eq_ok] at h
  obtain ⟨x, -, e⟩ := h
  simp only [Out.pure_eq, Out.ok.injEq, Prod.mk.injEq] at e
  obtain ⟨rfl, rfl⟩ := e
  obtain ⟨p, l, e⟩ := List.exists_cons_of_ne_nil h0
  simp [Suite.run, Suite.reset, Suite.getNumFailed, sumTests, e, forTests, assertNonnull, deref]

/-- C123 is false as stated: after the tests of a suite have been added to another one, the test is deleted twice if both are
freed. -/
theorem C123_shared_false : ∃ (m m1 m2 : Mem) (s o s1 s2 : Suite), Suits m o [7] (fun _ => Example.failing) ∧
    addSuite true m s o = .ok (m1, s1) ∧ s1.free m1 = .ok (m2, s2) ∧ ∃ w, o.free m2 = .ub w := by
  refine ⟨fun a => if a = 7 then some Example.failing else none, _, _, ⟨true, []⟩, ⟨true, [some 7]⟩, _, _,
    ⟨rfl, by decide, by simp⟩, rfl, rfl, "double delete", ?_⟩
  simp [Suite.free, UT.free, Mem.put]

/-- Cases of C122 and C123: a suite with the test at 1 is added to a suite with the test at 0, then everything is deleted. -/
example : ∃ m s, addSuite false (fun _ => some Example.failing) ⟨true, [some 0]⟩ ⟨false, [some 1]⟩ = .ok (m, s) ∧
    s.tests = [some 0, some 1] ∧ ∃ m' s', s.free m = .ok (m', s') ∧ m' 0 = none ∧ m' 1 = none ∧ m' 2 = some Example.failing ∧
    s'.run false m' = .throw "abort" := by
  have h : Suits (fun _ => some Example.failing) ⟨false, [some 1]⟩ [1] (fun _ => Example.failing) := ⟨rfl, by decide, fun _ _ => rfl⟩
  obtain ⟨m, e, h1, h2⟩ := C122_add_partial false (s := ⟨true, [some 0]⟩) h (Or.inr ⟨by simp, by simp⟩)
  have hS : Suits m ⟨true, [some 0, some 1]⟩ [0, 1] (fun a => (m a).getD Example.failing) := by
    refine ⟨rfl, by decide, fun a ha => ?_⟩
    have : a = 0 ∨ a = 1 := by simpa using ha
    rcases this with rfl | rfl
    · rw [h2 0 (by simp)]; rfl
    · rw [h1 1 (by simp)]; rfl
  obtain ⟨m', s', f1, f2, f3, -, -⟩ := C123_free_partial hS
  refine ⟨m, _, e, rfl, m', s', f1, f2 0 (by simp), f2 1 (by simp), ?_, (C123_after_false (by simp) f1).1⟩
  rw [f3 2 (by simp), h2 2 (by simp)]

/-- A case of C122_self_false. -/
example : addSelf true (fun _ => some Example.failing) ⟨true, [some 0]⟩ = .diverge :=
  C122_self_false true (as := [0]) (ts := fun _ => Example.failing) ⟨rfl, by decide, fun _ _ => rfl⟩ (by simp)

/-! ## the program -/

theorem addNew_ok : ∀ (ts : List Test) (m : Mem) (s : Suite) (a : ℕ),
    ∃ m', addNew m s a ts = .ok (m', { s with tests := s.tests ++ (List.range' a ts.length).map some }) ∧
      (∀ i (hi : i < ts.length), ∃ st, m' (a + i) = some { ts[i] with nPass := 0, nFail := 0, stream := st }) ∧ ∀ b < a, m' b = m b := by
  intro ts
  induction ts with
  | nil => intro m s a; exact ⟨m, by simp [addNew], by simp, by simp⟩
  | cons t ts ih =>
    intro m s a
    have h1 : (m.put a (some t)) a = some t := by simp [Mem.put]
    obtain ⟨m', e1, e2, e3⟩ := ih ((m.put a (some t)).put a (some { t with nPass := 0, nFail := 0, stream := t.stream || s.stream }))
      { s with tests := s.tests ++ [some a] } (a + 1)
    refine ⟨m', ?_, ?_, ?_⟩
    · rw [addNew, addTest_ok h1, Out.ok_bind]
      simp only [e1]
      simp [List.range'_succ]
    · intro i hi
      cases i with
      | zero =>
        refine ⟨t.stream || s.stream, ?_⟩
        rw [Nat.add_zero, e3 a (by omega)]
        simp [Mem.put]
      | succ i =>
        obtain ⟨st, h⟩ := e2 i (by simpa using hi)
        refine ⟨st, ?_⟩
        rw [show a + (i + 1) = a + 1 + i by omega, h]
        simp
    · intro b hb
      rw [e3 b (by omega)]
      have : b ≠ a := by omega
      simp [Mem.put, this]

/-- C124 (partial): the numbers printed at the end are the numbers of checks that fail and succeed in all tests.  Missing: the value
returned to the system, which is always 0 (C124_exit_false). -/
theorem C124_printed_partial (nd : Bool) (ts : List Test) :
    ∃ ret, UT.main nd ts = .ok (some ((ts.map fun t => ((nextChecks t).count false : ℤ)).sum,
      (ts.map fun t => ((nextChecks t).count true : ℤ)).sum), ret) := by
  obtain ⟨m, e1, e2, -⟩ := addNew_ok ts (fun _ => none) (Suite.new true) 0
  have hS : Suits m { Suite.new true with tests := (Suite.new true).tests ++ (List.range' 0 ts.length).map some } (List.range' 0 ts.length)
      (fun a => (m a).getD Example.failing) := by
    refine ⟨rfl, List.nodup_range' , ?_⟩
    intro a ha
    rw [List.mem_range'_1] at ha
    obtain ⟨st, h⟩ := e2 a (by omega)
    rw [Nat.zero_add] at h
    rw [h]; rfl
  have hc : ∀ c : Bool, ((List.range' 0 ts.length).map fun a => ((nextChecks ((m a).getD Example.failing)).count c : ℤ)) =
      ts.map fun t => ((nextChecks t).count c : ℤ) := by
    intro c
    refine List.ext_getElem (by simp) fun i h1 h2 => ?_
    simp only [List.getElem_map, List.getElem_range', Nat.zero_add, Nat.one_mul]
    obtain ⟨st, h⟩ := e2 i (by simpa using h2)
    rw [Nat.zero_add] at h
    rw [h]; rfl
  obtain ⟨m', r1, -, -, -, -, out, r2, r3, -⟩ := C121_report_partial nd hS
  refine ⟨0, ?_⟩
  rw [UT.main, e1, Out.ok_bind]
  simp only
  rw [r1, Out.ok_bind, r2, Out.ok_bind, r3 rfl, hc, hc]
  rfl

/-- C124 is false as stated: whatever fails, the program returns 0 to the system, like a program that has succeeded. -/
theorem C124_exit_false (nd : Bool) (ts : List Test) : ∃ out, UT.main nd ts = .ok (out, 0) := by
  obtain ⟨r, h⟩ := C124_printed_partial nd ts
  have h' := h
  rw [UT.main, Out.bind_eq_ok] at h'
  obtain ⟨x, -, h'⟩ := h'
  rw [Out.bind_eq_ok] at h'
  obtain ⟨y, -, h'⟩ := h'
  rw [Out.bind_eq_ok] at h'
  obtain ⟨z, -, h'⟩ := h'
  simp only [Out.pure_eq, Out.ok.injEq, Prod.mk.injEq] at h'
  exact ⟨_, by rw [h, ← h'.2]⟩

end Verif
