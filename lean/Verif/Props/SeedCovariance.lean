import Verif.Model.Gbl

/-!
# C105: the covariance matrix of the start parameters has no influence on the fit
-/

open Classical

noncomputable section

namespace Verif

open Traj

/-- the algorithm of `std::sort` decides by comparing the elements only: it does the same whatever else they contain -/
def ComparesOnly (sort : List Element → List Element) : Prop :=
  ∀ f : Element → Element, (∀ e, (f e).arc = e.arc) → ∀ l, sort (l.map f) = (sort l).map f

/-- the user's view of a whole fit: add measurements and scatterers (most recent first), prepare, fit, and ask for the result
at `label`: the return value of `fit` and the result -/
def wholeFit (env : Env) (sort : List Element → List Element) (gbl : Fitter) (tp : TP) (ops : List AddOp) (label : ℤ) :
    Out (Bool × FitResults) := do
  let t ← ((make tp).after env ops).prepareForFitting env sort
  let w := World.init (fun _ => some (t, env.field))
  let (w, success) := w.fit gbl 0
  let success ← success
  let (w, address) := w.getResults label
  let address ← address
  match w.heap address with
  | none => .ub "the result does not exist any more"
  | some r => pure (success, r)

namespace SeedCov

/-- replace the covariance matrix -/
def tpC (c : M5) (tp : TP) : TP := ⟨c, tp.hp, tp.rp⟩

/-- replace the covariance matrix -/
def elC (c : M5) (e : Element) : Element := { e with tp := tpC c e.tp }

/-- replace the covariance matrix -/
def trC (c : M5) (t : Traj) : Traj := { t with ref := tpC c t.ref, elems := t.elems.map (elC c) }

theorem move_tpC (c : M5) (tp : TP) (ref : V3) :
    moveHelixTo (tpC c tp) ref false = (do let r ← moveHelixTo tp ref false; pure (tpC c r.1, r.2)) := by
  have h : moveVals (tpC c tp) ref = moveVals tp ref := rfl
  unfold moveHelixTo
  rw [h]
  cases moveVals tp ref <;> rfl

theorem make_elC (c : M5) (arc : Dbl) (tp : TP) (surface : Surface) (measDir : List V3) (precisions residuals : List Dbl)
    (lCLS : V3 × V3) (id : ℕ) (isScatterer hasMeasurement : Bool) :
    Element.make arc (tpC c tp) surface measDir precisions residuals lCLS id isScatterer hasMeasurement =
      (do let e ← Element.make arc tp surface measDir precisions residuals lCLS id isScatterer hasMeasurement; pure (elC c e)) := by
  unfold Element.make
  cases calculateLocalToMeasurementProjectionMatrix lCLS.1 lCLS.2 measDir <;> rfl

theorem measurement_elC (c : M5) (env : Env) (mass : Dbl) (back : Element) (position : V3) (precision : List Dbl)
    (surface : Surface) (id : ℕ) (isScatterer : Bool) :
    measurementElement env mass (elC c back) position precision surface id isScatterer =
      (do let e ← measurementElement env mass back position precision surface id isScatterer; pure (e.map (elC c))) := by
  unfold measurementElement
  have e1 : (elC c back).tp = tpC c back.tp := rfl
  have e2 : (elC c back).arc = back.arc := rfl
  have e3 : (tpC c back.tp).hp = back.tp.hp := rfl
  have e4 : (tpC c back.tp).rp = back.tp.rp := rfl
  simp only [e1, e2, e3, e4]
  cases intersectWithSurface surface back.tp.hp back.tp.rp 0 V3.zero 1 false with
  | throw m => rfl
  | ub m => rfl
  | diverge => rfl
  | ok h =>
    simp only [Out.ok_bind]
    split
    · rw [move_tpC]
      cases moveHelixTo back.tp h.xx false with
      | throw m => rfl
      | ub m => rfl
      | diverge => rfl
      | ok r =>
        obtain ⟨tp, a⟩ := r
        simp only [Out.ok_bind, Out.pure_eq]
        have e5 : (tpC c tp).hp = tp.hp := rfl
        have e6 : (tpC c tp).rp = tp.rp := rfl
        simp only [e5, e6]
        generalize computeEnergyLoss surface (surface.globalToLocal position) (momentumAtPCA env.globalField tp.hp tp.rp) mass = el
        cases el.energy with
        | none => rfl
        | some en =>
          dsimp only
          rw [show (⟨(tpC c tp).cov, tp.hp.set OMEGA (tp.hp OMEGA / (1 - el.deltaE / en)), tp.rp⟩ : TP) =
            tpC c ⟨tp.cov, tp.hp.set OMEGA (tp.hp OMEGA / (1 - el.deltaE / en)), tp.rp⟩ from rfl, make_elC]
          generalize Element.make _ _ _ _ _ _ _ _ _ _ = x
          cases x <;> rfl
    · rfl

theorem scatterer_elC (c : M5) (env : Env) (mass : Dbl) (back : Element) (surface : Surface) :
    scattererElement env mass (elC c back) surface =
      (do let e ← scattererElement env mass back surface; pure (e.map (elC c))) := by
  unfold scattererElement
  have e1 : (elC c back).tp = tpC c back.tp := rfl
  have e2 : (elC c back).arc = back.arc := rfl
  have e3 : (tpC c back.tp).hp = back.tp.hp := rfl
  have e4 : (tpC c back.tp).rp = back.tp.rp := rfl
  simp only [e1, e2, e3, e4]
  cases intersectWithSurface surface back.tp.hp back.tp.rp 0 V3.zero 1 true with
  | throw m => rfl
  | ub m => rfl
  | diverge => rfl
  | ok h =>
    simp only [Out.ok_bind]
    split
    · rw [move_tpC]
      cases moveHelixTo back.tp h.xx false with
      | throw m => rfl
      | ub m => rfl
      | diverge => rfl
      | ok r =>
        obtain ⟨tp, a⟩ := r
        simp only [Out.ok_bind, Out.pure_eq]
        have e5 : (tpC c tp).hp = tp.hp := rfl
        have e6 : (tpC c tp).rp = tp.rp := rfl
        simp only [e5, e6]
        generalize computeEnergyLoss surface (surface.globalToLocal h.xx) (momentumAtPCA env.globalField tp.hp tp.rp) mass = el
        cases el.energy with
        | none => rfl
        | some en =>
          dsimp only
          rw [show (⟨(tpC c tp).cov, tp.hp.set OMEGA (tp.hp OMEGA / (1 - el.deltaE / en)), tp.rp⟩ : TP) =
            tpC c ⟨tp.cov, tp.hp.set OMEGA (tp.hp OMEGA / (1 - el.deltaE / en)), tp.rp⟩ from rfl, make_elC]
          generalize Element.make _ _ _ _ _ _ _ _ _ _ = x
          cases x <;> rfl
    · rfl

theorem withStart_trC (c : M5) (t : Traj) : (trC c t).withStart = trC c t.withStart := by
  unfold withStart
  by_cases h : t.elems = []
  · rw [if_pos h, if_pos (by simp [trC, h])]
    simp only [addElement, trC, h]
    rfl
  · rw [if_neg h, if_neg (by simp [trC, h])]

theorem append_trC (c : M5) (t : Traj) (x : Out (Option Element)) :
    (trC c t).append (do let e ← x; pure (e.map (elC c))) = (trC c (t.append x).1, (t.append x).2) := by
  cases x with
  | ok e =>
    cases e with
    | none => rfl
    | some e =>
      simp only [Out.ok_bind, Out.pure_eq, Option.map_some, append, trC, List.map_append, List.map_cons, List.map_nil]
  | throw m => rfl
  | ub m => rfl
  | diverge => rfl

theorem getLast_trC (c : M5) (t : Traj) : (trC c t).elems.getLast? = t.elems.getLast?.map (elC c) := by
  simp [trC, List.getLast?_map]

/-- a call has the same effect and outcome whatever the covariance matrix -/
theorem step_trC (c : M5) (env : Env) (t : Traj) (op : AddOp) :
    (trC c t).step env op = (trC c (t.step env op).1, (t.step env op).2) := by
  cases op with
  | measurement p prec s id sc =>
    simp only [step, addMeasurement]
    rw [withStart_trC, getLast_trC]
    cases t.withStart.elems.getLast? with
    | none => rfl
    | some back =>
      simp only [Option.map_some]
      rw [measurement_elC, append_trC]
      rfl
  | scatterer s =>
    simp only [step, addScatterer]
    rw [withStart_trC, getLast_trC]
    cases t.withStart.elems.getLast? with
    | none => rfl
    | some back =>
      simp only [Option.map_some]
      rw [scatterer_elC, append_trC]
      rfl
  | setMass m => rfl

theorem after_trC (c : M5) (env : Env) (t : Traj) (ops : List AddOp) : (trC c t).after env ops = trC c (t.after env ops) := by
  induction ops with
  | nil => rfl
  | cons op ops ih => simp only [after]; rw [ih, step_trC]

theorem strictWeak_map (c : M5) (l : List Element) : StrictWeakOn compareElements (l.map (elC c)) ↔ StrictWeakOn compareElements l := by
  constructor
  · intro h
    have hm : ∀ a ∈ l, elC c a ∈ l.map (elC c) := fun a ha => List.mem_map_of_mem ha
    exact ⟨fun a ha => h.irrefl (elC c a) (hm a ha),
      fun a ha b hb d hd => h.trans (elC c a) (hm a ha) (elC c b) (hm b hb) (elC c d) (hm d hd),
      fun a ha b hb d hd => h.incomp (elC c a) (hm a ha) (elC c b) (hm b hb) (elC c d) (hm d hd)⟩
  · intro h
    refine ⟨?_, ?_, ?_⟩
    · intro a ha
      obtain ⟨a', ha', rfl⟩ := List.mem_map.1 ha
      exact h.irrefl a' ha'
    · intro a ha b hb d hd
      obtain ⟨a', ha', rfl⟩ := List.mem_map.1 ha
      obtain ⟨b', hb', rfl⟩ := List.mem_map.1 hb
      obtain ⟨d', hd', rfl⟩ := List.mem_map.1 hd
      exact h.trans a' ha' b' hb' d' hd'
    · intro a ha b hb d hd
      obtain ⟨a', ha', rfl⟩ := List.mem_map.1 ha
      obtain ⟨b', hb', rfl⟩ := List.mem_map.1 hb
      obtain ⟨d', hd', rfl⟩ := List.mem_map.1 hd
      exact h.incomp a' ha' b' hb' d' hd'

theorem stdSort_map (c : M5) {sort : List Element → List Element} (hs : ComparesOnly sort) (l : List Element) :
    stdSort sort compareElements (l.map (elC c)) = (do let l' ← stdSort sort compareElements l; pure (l'.map (elC c))) := by
  unfold stdSort
  by_cases h : StrictWeakOn compareElements l
  · rw [if_pos h, if_pos ((strictWeak_map c l).2 h), hs (elC c) (fun _ => rfl)]
    rfl
  · rw [if_neg h, if_neg (fun h' => h ((strictWeak_map c l).1 h'))]
    rfl

theorem elementAtLoop_map (c : M5) (s : Dbl) : ∀ (l : List Element) (prevS : Dbl) (e : Element),
    elementAtLoop s prevS (elC c e) (l.map (elC c)) = elC c (elementAtLoop s prevS e l)
  | [], _, _ => rfl
  | x :: l, prevS, e => by
    simp only [List.map_cons, elementAtLoop]
    rw [elementAtLoop_map c s l]
    rw [show (elC c x).arc = x.arc from rfl]
    by_cases h : prevS ≤ s ∧ s < x.arc
    · rw [cif_pos h, cif_pos h]
    · rw [cif_neg h, cif_neg h]

theorem tangentAt_trC (c : M5) (t : Traj) (s : Dbl) : (trC c t).tangentAt s = t.tangentAt s := by
  unfold tangentAt elementAt
  simp only [trC]
  cases t.elems with
  | nil => rfl
  | cons e l =>
    simp only [List.map_cons, elementAtLoop_map]
    rfl

theorem loss_elC (c : M5) (env : Env) (mass : Dbl) (e : Element) : energyLossEntry env mass (elC c e) = energyLossEntry env mass e := rfl

theorem jacobian_elC (c : M5) (env : Env) (t : Traj) (prevS : Dbl) (e : Element) :
    elementJacobian env (trC c t) prevS (elC c e) = elementJacobian env t prevS e := by
  unfold elementJacobian
  simp only [tangentAt_trC]
  rfl

theorem prepareLoop_map (c : M5) (env : Env) (t : Traj) : ∀ (l : List Element) (prevS : Dbl),
    prepareLoop env (trC c t) prevS (l.map (elC c)) = (do let l' ← prepareLoop env t prevS l; pure (l'.map (elC c)))
  | [], _ => rfl
  | e :: l, prevS => by
    simp only [List.map_cons, prepareLoop]
    rw [jacobian_elC]
    cases elementJacobian env t prevS e with
    | throw m => rfl
    | ub m => rfl
    | diverge => rfl
    | ok j =>
      simp only [Out.ok_bind]
      rw [show (elC c e).arc = e.arc from rfl, prepareLoop_map c env t l]
      cases prepareLoop env t e.arc l <;> rfl

theorem prepare_trC (c : M5) (env : Env) {sort : List Element → List Element} (hs : ComparesOnly sort) (t : Traj) :
    (trC c t).prepareForFitting env sort = (do let t' ← t.prepareForFitting env sort; pure (trC c t')) := by
  unfold prepareForFitting
  rw [show (trC c t).elems = t.elems.map (elC c) from rfl, stdSort_map c hs]
  cases stdSort sort compareElements t.elems with
  | throw m => rfl
  | ub m => rfl
  | diverge => rfl
  | ok l =>
    simp only [Out.ok_bind, Out.pure_eq]
    cases l with
    | nil => rfl
    | cons e l =>
      simp only [List.map_cons]
      rw [show ({ trC c t with elems := elC c e :: l.map (elC c) } : Traj) = trC c { t with elems := e :: l } from rfl,
        prepareLoop_map]
      cases prepareLoop env { t with elems := e :: l } 0 l <;> rfl

theorem gblPoints_map (c : M5) : ∀ l : List Element, gblPoints (l.map (elC c)) = gblPoints l
  | [] => rfl
  | e :: l => by
    simp only [List.map_cons, gblPoints]
    rw [gblPoints_map c l]
    rfl

theorem fill_trC (c : M5) (gi : GblState) (f : GblFit) (t : Traj) (field : V3 → V3) (label : ℤ) :
    World.fillContent gi f (trC c t) field label = World.fillContent gi f t field label := by
  unfold World.fillContent
  simp only [trC, List.getElem?_map]
  cases t.elems[label.toNat]? <;> rfl

end SeedCov

open SeedCov

/-- C105: calls on trajectories that differ in the covariance matrix of the start parameters have the same outcome. -/
theorem C105_calls (env : Env) (tp : TP) (c : M5) (ops : List AddOp) (op : AddOp) :
    (((make ⟨c, tp.hp, tp.rp⟩).after env ops).step env op).2 = (((make tp).after env ops).step env op).2 := by
  have h : make ⟨c, tp.hp, tp.rp⟩ = trC c (make tp) := rfl
  rw [h, after_trC, step_trC]

/-- C105: fit and results do not depend on the covariance matrix of the start parameters. -/
theorem C105_fit (env : Env) {sort : List Element → List Element} (hs : ComparesOnly sort) (gbl : Fitter) (tp : TP) (c : M5)
    (ops : List AddOp) (label : ℤ) :
    wholeFit env sort gbl ⟨c, tp.hp, tp.rp⟩ ops label = wholeFit env sort gbl tp ops label := by
  have h : make ⟨c, tp.hp, tp.rp⟩ = trC c (make tp) := rfl
  unfold wholeFit
  rw [h, after_trC, prepare_trC c env hs]
  cases ((make tp).after env ops).prepareForFitting env sort with
  | throw m => rfl
  | ub m => rfl
  | diverge => rfl
  | ok t =>
    simp only [Out.ok_bind, Out.pure_eq, World.fit, World.clear, World.init]
    rw [show (trC c t).elems = t.elems.map (elC c) from rfl, gblPoints_map]
    cases gblPoints t.elems with
    | throw m => rfl
    | ub m => rfl
    | diverge => rfl
    | ok ps =>
      simp only [Out.ok_bind, World.getResults]
      rw [fill_trC]
      generalize World.fillContent _ _ _ _ _ = x
      cases x <;> simp

/-- an algorithm as in `ComparesOnly` that fulfils the specification of `std::sort` -/
example : ComparesOnly (fun l => l.mergeSort (fun a b => decide (¬ compareElements b a))) := by
  intro f hf l
  refine (List.map_mergeSort ?_).symm
  intro a _ b _
  simp only [compareElements, hf]
  congr

end Verif
