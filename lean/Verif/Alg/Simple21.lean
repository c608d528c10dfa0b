import Mathlib.Data.List.Sort
import Verif.Alg.Kit20
import Verif.Alg.Simple13
import Verif.Alg.Simple17

/-!
# Social spiders and multi-operator differential evolution

`OriginalSSpiderO` and `OriginalIMODE`.
-/

set_option linter.unusedSectionVars false
set_option linter.unusedVariables false

namespace Mealpy
open Spec

variable {d : Nat} {K : Type} [Num K] {c : Cfg d K}

namespace OriginalSSpiderO

/-- the hyper-parameters, in increasing order (`mealpy/swarm_based/SSpiderO.py:67-69`) -/
structure Params (K : Type) where
  fMin : K
  fMax : K

/-- `self.pop_females` and `self.pop_males`. They hold the agents of the first population for ever: `survive__` puts the better children into
`self.pop` only. -/
structure Vars (d : Nat) (K : Type) where
  fem : List (Agent d K K)
  mal : List (Agent d K K)

/-- `n_f` (`mealpy/swarm_based/SSpiderO.py:73-74`) -/
def females (c : Cfg d K) (p : Params K) (u : K) : Int := Num.trunc (♯c.popSize * (p.fMin + (p.fMax - p.fMin) * u))

/-- the share of the females is between 0 and 1, which the validator asks for, and rounding respects that -/
def Shares (c : Cfg d K) (p : Params K) : Prop := ∀ u : K, 0 ≤ u → u < 1 → 0 ≤ females c p u ∧ females c p u ≤ c.popSize

/-- `recalculate_weights__` (`mealpy/swarm_based/SSpiderO.py:247-254`) -/
def reweigh (pop : List (Agent d K K)) : D c (List (Agent d K K)) := do
  let fits := pop.map (·.fit)
  let best := match c.P.mm with | .min => minL fits | .max => maxL fits
  let worst := match c.P.mm with | .min => maxL fits | .max => minL fits
  repM pop.length (fun i => do
    let a ← nth pop i
    let w ← (if best = worst then uniform 0.2 0.8 else pure (0.001 + (a.fit - worst) / (best - worst + Num.EPSILON)) : D c K)
    pure { a with ext := w })

/-- `initialization` (`mealpy/swarm_based/SSpiderO.py:72-86`) -/
def initialization (p : Params K) (_ : Vars d K) (start : Option (List (Agent d K K))) : B c (List (Agent d K K) × Vars d K) := do
  let u ← liftD random
  let idm ← liftD (choice c.popSize (c.popSize - (females c p u).toNat) false)
  let idf ← liftD (inSomeOrder (rangeWithout c.popSize idm))
  let pop ← startPop (fun _ => pure 0) start
  let pop ← liftD (reweigh pop)
  pure (pop, ⟨idf.filterMap (fun i => pop[i]?), idm.filterMap (fun i => pop[i]?)⟩)

/-- the nearest heavier spider, unless further than `far`, with its distance (`mealpy/swarm_based/SSpiderO.py:104-111` and 155-162) -/
def closest (x : Agent d K K) (others : List (Agent d K K)) (scale far : K) : Option (K × Agent d K K) :=
  others.foldl (fun b a =>
    if x.ext < a.ext then
      let dt := normV (fun j => a.sol j - x.sol j) / scale
      if dt < (match b with | some r => r.1 | none => far) ∧ dt ≠ 0 then some (dt, a) else b
    else b) none

/-- `vibs` and `x_s` (`mealpy/swarm_based/SSpiderO.py:112-116` and 163-168) -/
def vibration (r : Option (K × Agent d K K)) : D c (K × Vec d K) :=
  match r with
  | some (dt, a) => do
    let u ← random
    pure (2 * (a.ext * Num.exp (-(u * Num.pow dt 2))), a.sol)
  | none => pure (0, fun _ => 0)

/-- `np.sum(self.problem.ub - self.problem.lb)` (`mealpy/swarm_based/SSpiderO.py:99`) -/
def scale (c : Cfg d K) : K := sumL (List.ofFn (fun j => c.P.ub j - c.P.lb j))

/-- `self.p_m[epoch-1]` (`mealpy/swarm_based/SSpiderO.py:77`) -/
def pm (c : Cfg d K) (ep : Nat) : K := (♯c.epoch + 1 - ♯ep) / (♯c.epoch + 1)

/-- one female moves (`mealpy/swarm_based/SSpiderO.py:102-133`) -/
def moveFemale (ep : Nat) (best : Agent d K K) (fem mal : List (Agent d K K)) (i : Nat) : D c (List (Agent d K K)) := do
  let x ← nth fem i
  let q ← vibration (closest x (fem ++ mal) (scale c) 65536)
  let dtb := normV (fun j => best.sol j - x.sol j) / scale c
  let u ← random
  let vibb := 2 * (best.ext * Num.exp (-(u * Num.pow dtb 2)))
  let beta ← uniformVec (fun _ => 0) (fun _ => 1)
  let gamma ← uniformVec (fun _ => 0) (fun _ => 1)
  let v ← uniformVec (fun _ => 0) (fun _ => 1)
  let t ← random
  let pos ← correctWith amendRandom (fun j =>
    if pm c ep ≤ t then x.sol j + q.1 * (q.2 j - x.sol j) * beta j + vibb * (best.sol j - x.sol j) * gamma j + 2 * pm c ep * (v j - 0.5)
    else x.sol j - q.1 * (q.2 j - x.sol j) * beta j - vibb * (best.sol j - x.sol j) * gamma j + 2 * pm c ep * (v j - 0.5))
  pure (fem.set i { x with sol := pos })

/-- the new positions of the females (`mealpy/swarm_based/SSpiderO.py:98-136`); a female sees those before it where they have gone -/
def moveFemales (ep : Nat) (best : Agent d K K) (fem mal : List (Agent d K K)) : D c (List (Agent d K K)) :=
  iter fem.length (fun i l => moveFemale ep best l mal i) fem

/-- one male moves (`mealpy/swarm_based/SSpiderO.py:149-176`) -/
def moveMale (ep : Nat) (fem : List (Agent d K K)) (median : K) (mean : Vec d K) (x : Agent d K K) : D c (Vec d K × K) := do
  let u ← uniformVec (fun _ => 0) (fun _ => 1)
  let v ← randomVec
  let rd : Vec d K := fun j => 2 * pm c ep * (v j - 0.5)
  let delta : Vec d K := fun j => 2 * u j - 0.5
  let pos ← (if median ≤ x.ext then do
      let q ← vibration (closest x fem (scale c) 99999999)
      correctWith amendRandom (fun j => x.sol j + q.1 * (q.2 j - x.sol j) * delta j + rd j)
    else correctWith amendRandom (fun j => x.sol j + delta j * (mean j - x.sol j) + rd j) : D c (Vec d K))
  pure (pos, x.ext)

/-- the weighted mean of the positions (`mealpy/swarm_based/SSpiderO.py:141-148`) -/
def mean (pop : List (Agent d K K)) : Vec d K :=
  let total := sumL (pop.map (·.ext))
  if total = 0 then meanPos (pop.map (·.sol)) else fun j => sumL (pop.map (fun a => a.ext * a.sol j)) / total

/-- the couples (`mealpy/swarm_based/SSpiderO.py:208-225`) -/
def couples (fem mal : List (Agent d K K)) : List (Vec d K × Vec d K) :=
  let median := medianL (mal.map (·.ext))
  let rad := (fem ++ mal).map (fun a => maxL (List.ofFn a.sol) - minL (List.ofFn a.sol))
  let r := sumL rad / (2 * ♯d)
  (mal.filter (fun a => decide (median < a.ext))).flatMap (fun a =>
    (fem.filter (fun b => decide (normV (fun j => a.sol j - b.sol j) < r))).map (fun b => (a.sol, b.sol)))

/-- the two children of a couple (`mealpy/swarm_based/SSpiderO.py:183-186` and 229-231) -/
def children (q : Vec d K × Vec d K) : D c (List (Vec d K × K)) := do
  let r ← uniform 0.5 1
  let x ← correctWith amendRandom (fun j => r * q.1 j + (1 - r) * q.2 j)
  let y ← correctWith amendRandom (fun j => r * q.2 j + (1 - r) * q.1 j)
  pure [(x, 0), (y, 0)]

/-- `mating__` (`mealpy/swarm_based/SSpiderO.py:207-237`): one couple is not enough. The number of agents generated is zero when there are more
children than agents. -/
def mating (fem mal : List (Agent d K K)) : M c K (Vars d K) (List (Agent d K K)) := do
  let cs := couples fem mal
  let pend ← draw (if 2 ≤ cs.length then gather cs.length (fun i => do
      let q ← nth cs i
      children q) else pure [] : D c (List (Vec d K × K)))
  let kids ← evalAll pend
  let more ← liftB (generatePopulation (fun _ => pure 0) (c.popSize - pend.length))
  pure (kids ++ more)

/-- `OriginalSSpiderO.evolve` (`mealpy/swarm_based/SSpiderO.py:256-274`). The agents of `self.pop` that no child has replaced are those of the two
lists and get their last weights with them. -/
def evolve (_p : Params K) (ep : Nat) : M c K (Vars d K) Unit := do
  let s ← get
  let fem ← draw (moveFemales ep s.gbest s.ext.fem s.ext.mal)
  let fem ← evalAll (fem.map (fun a => (a.sol, a.ext)))
  let median := medianL (s.ext.mal.map (·.ext))
  let pend ← draw (repM s.ext.mal.length (fun i => do
    let x ← nth s.ext.mal i
    moveMale ep fem median (mean (fem ++ s.ext.mal)) x))
  let mal ← evalAll pend
  let pop ← draw (reweigh (fem ++ mal))
  let kids ← mating (pop.take fem.length) (pop.drop fem.length)
  let sorted ← draw (sortedPop kids)
  let kids := sorted.take pop.length
  let new ← draw (reweigh (List.zipWith (fun k a => if compareTarget k.tgt a.tgt c.P.mm then k else a) kids pop))
  let kept := List.zipWith (fun (q : Agent d K K × Agent d K K) a => if compareTarget q.1.tgt q.2.tgt c.P.mm then q.2 else a) (kids.zip pop) new
  setPop new
  modExt (fun _ => ⟨kept.take fem.length, kept.drop fem.length⟩)

/-- every agent is in one of the two lists -/
structure Ok (c : Cfg d K) (y : Vars d K) : Prop where
  len : y.fem.length + y.mal.length = c.popSize
  fem : ∀ a ∈ y.fem, CF c a
  mal : ∀ a ∈ y.mal, CF c a

section

variable {p : Params K} {ep : Nat}

theorem dt_reweigh {pop : List (Agent d K K)} (h : ∀ a ∈ pop, CF c a) : DT noErr (reweigh pop : D c _) (fun l => l.length = pop.length ∧ ∀ a ∈ l, CF c a) := by
  unfold reweigh
  dsimp only
  exact DT.repM fun i hi => DT.bind (DT.nth_mem hi) fun a ha => DT.bind (R := fun _ => True) (DT.ite (fun _ => DT.uniform') fun _ => DT.pure trivial) fun w _ => DT.pure (h a ha)

theorem bt_rest (hE : c.E.Lawful) (hP : c.P.Lawful) (hs : Shares c p) {y : Vars d K} {n : Nat} {start : Option (List (Agent d K K))}
    (h : BT noErr n n (startPop (fun _ => pure 0) start : B c _) (fun l => l.length = c.popSize ∧ ∀ a ∈ l, CF c a)) :
    BT noErr n n (initialization p y start : B c _) (fun r => r.1.length = c.popSize ∧ (∀ a ∈ r.1, CF c a) ∧ Ok c r.2) := by
  unfold initialization
  refine BT.bind0 (BT.liftD (DT.random hE)) fun u hu => ?_
  have hf := hs u hu.1 hu.2
  refine BT.bind0 (BT.liftD (DT.choice hE (OriginalCRO.choice_ok (by omega)))) fun idm hm => BT.bind0 (BT.liftD (DT.inSomeOrder hE)) fun idf hidf => ?_
  refine BT.bindS h le_rfl fun pop hpop => BT.bind0 (BT.liftD (dt_reweigh hpop.2)) fun new hnew => BT.weaken (BT.pure ⟨hnew.1.trans hpop.1, hnew.2, ?_⟩) (by omega) (by omega)
  have hlen : new.length = c.popSize := hnew.1.trans hpop.1
  have hlf := rangeWithout_length_eq (hm.2.2 rfl) hm.2.1
  have hmem : ∀ l : List Nat, ∀ a ∈ l.filterMap (fun i => new[i]?), CF c a := fun l a ha => by
    obtain ⟨i, _, h⟩ := List.mem_filterMap.1 ha
    exact hnew.2 a (List.mem_of_getElem? h)
  refine ⟨?_, hmem _, hmem _⟩
  rw [lookup_all (l := idf) fun i hi => by
      rw [hlen]
      exact List.mem_range.1 (List.mem_filter.1 ((hidf.mem_iff).1 hi)).1,
    lookup_all (l := idm) fun i hi => by rw [hlen]; exact hm.2.1 i hi, hidf.length_eq]
  exact hlf

theorem bt_none (hE : c.E.Lawful) (hP : c.P.Lawful) (hs : Shares c p) {y : Vars d K} :
    BT noErr c.popSize c.popSize (initialization p y none : B c _) (fun r => r.1.length = c.popSize ∧ (∀ a ∈ r.1, CF c a) ∧ Ok c r.2) :=
  bt_rest hE hP hs (BT.generatePopulation hE hP fun x _ => DT.pure trivial)

theorem bt_some (hE : c.E.Lawful) (hP : c.P.Lawful) (hs : Shares c p) {y : Vars d K} {pop : List (Agent d K K)} (hl : pop.length = c.popSize) (hc : ∀ a ∈ pop, CF c a) :
    BT noErr (c.popSize - c.popSize) (c.popSize - c.popSize) (initialization p y (some pop) : B c _)
      (fun r => r.1.length = c.popSize ∧ (∀ a ∈ r.1, CF c a) ∧ Ok c r.2) := by
  rw [Nat.sub_self]
  exact bt_rest hE hP hs (BT.pure ⟨hl, hc⟩)

theorem dt_vibration {r : Option (K × Agent d K K)} : DT noErr (vibration r : D c _) (fun _ => True) := by
  unfold vibration
  split
  · exact DT.bind DT.random' fun _ _ => DT.pure trivial
  · exact DT.pure trivial

theorem dt_moveFemales (hE : c.E.Lawful) (hP : c.P.Lawful) {best : Agent d K K} {fem mal : List (Agent d K K)} (h : ∀ a ∈ fem, Feas c a.sol) :
    DT noErr (moveFemales ep best fem mal : D c _) (fun l => l.length = fem.length ∧ ∀ a ∈ l, Feas c a.sol) := by
  unfold moveFemales
  refine DT.iter (I := fun _ (l : List (Agent d K K)) => l.length = fem.length ∧ ∀ a ∈ l, Feas c a.sol) _ ⟨rfl, h⟩ fun i l hi hl => ?_
  unfold moveFemale
  dsimp only
  refine DT.bind (DT.nth_mem (by rw [hl.1]; exact hi)) fun x _ => DT.bind dt_vibration fun _ _ => DT.bind DT.random' fun _ _ => DT.bind DT.uniformVec' fun _ _ =>
    DT.bind DT.uniformVec' fun _ _ => DT.bind DT.uniformVec' fun _ _ => DT.bind DT.random' fun _ _ => DT.bind (DT.correctWith hP (DT.amendRandom)) fun pos hp =>
    DT.pure ⟨by rw [List.length_set]; exact hl.1, fun a ha => ?_⟩
  rcases mem_set_iff ha with rfl | ha
  · exact hp
  · exact hl.2 a ha

theorem dt_moveMale (hE : c.E.Lawful) (hP : c.P.Lawful) {fem : List (Agent d K K)} {median : K} {mean : Vec d K} {x : Agent d K K} :
    DT noErr (moveMale ep fem median mean x : D c _) (fun q => Feas c q.1) := by
  unfold moveMale
  dsimp only
  refine DT.bind DT.uniformVec' fun _ _ => DT.bind DT.randomVec fun _ _ => DT.bind (R := fun x => Feas c x) (DT.ite (fun _ => ?_) fun _ => DT.correctWith hP DT.amendRandom) fun pos hp => DT.pure hp
  exact DT.bind dt_vibration fun _ _ => DT.correctWith hP DT.amendRandom

theorem couples_length {fem mal : List (Agent d K K)} : (couples fem mal).length ≤ mal.length * fem.length := by
  unfold couples
  dsimp only
  generalize medianL (mal.map (·.ext)) = m
  generalize sumL ((fem ++ mal).map (fun a => maxL (List.ofFn a.sol) - minL (List.ofFn a.sol))) / (2 * ♯d) = r
  induction mal with
  | nil => simp
  | cons a mal ih =>
    rw [List.length_cons, Nat.add_mul, Nat.one_mul, List.filter_cons]
    split
    · rw [List.flatMap_cons, List.length_append, List.length_map]
      have := List.length_filter_le (fun b : Agent d K K => decide (normV (fun j => a.sol j - b.sol j) < r)) fem
      omega
    · omega

theorem wt_mating (hE : c.E.Lawful) (hP : c.P.Lawful) {fem mal : List (Agent d K K)} {J : Vars d K → Prop} (hl : fem.length + mal.length = c.popSize) :
    WT noErr (Inv.std c K J) c.popSize (2 * (c.popSize * c.popSize)) (mating fem mal : M c K (Vars d K) _) (fun l => c.popSize ≤ l.length ∧ ∀ a ∈ l, CF c a) := by
  unfold mating
  dsimp only
  have hn : c.popSize ≤ 2 * (c.popSize * c.popSize) := by have := Nat.le_mul_self c.popSize; omega
  have hcs : (couples fem mal).length ≤ c.popSize * c.popSize :=
    couples_length.trans (Nat.mul_le_mul (by omega) (by omega))
  refine WT.bind0 (R := fun l : List (Vec d K × K) => l.length ≤ (couples fem mal).length * 2 ∧ ∀ q ∈ l, Feas c q.1)
    (WT.draw (DT.ite (fun _ => DT.mono (DT.gather (k1 := 2) (k2 := 2) (Q := fun q : Vec d K × K => Feas c q.1) fun i hi => ?_) fun l h => ⟨h.1.2, h.2⟩) fun _ => DT.pure ⟨by simp, by simp⟩)) fun pend hpend => ?_
  · refine DT.bind (DT.nth_mem hi) fun q _ => ?_
    unfold children
    refine DT.bind DT.uniform' fun _ _ => DT.bind (DT.correctWith hP DT.amendRandom) fun x hx => DT.bind (DT.correctWith hP DT.amendRandom) fun y hy => DT.pure ⟨⟨le_rfl, le_rfl⟩, ?_⟩
    intro q hq
    rcases List.mem_cons.1 hq with rfl | hq
    · exact hx
    · rw [List.mem_singleton.1 hq]
      exact hy
  · refine WT.bindS (WT.evalAll hE fun q hq => Inv.std_mk (hpend.2 q hq)) (by omega) fun kids hkids => ?_
    refine WT.generatePopulation_std hE hP (fun x _ => DT.pure trivial) ?_ fun more hmore => WT.weaken (WT.pure ⟨?_, ?_⟩) (by omega) (by omega)
    · have := hpend.1
      omega
    · rw [List.length_append, hkids.1, hmore.1]
      omega
    · intro a ha
      rcases List.mem_append.1 ha with h | h
      · exact ⟨(hkids.2 a h).1, (hkids.2 a h).2⟩
      · exact hmore.2 a h

theorem framed_mating (hE : c.E.Lawful) {fem mal : List (Agent d K K)} : Framed true (mating fem mal : M c K (Vars d K) _) := by
  unfold mating; framed

end

macro_rules
  | `(tactic| fprim) => `(tactic| (at_last OriginalSSpiderO.mating; exact OriginalSSpiderO.framed_mating (by assumption)))

/-- `OriginalSSpiderO` (`mealpy/swarm_based/SSpiderO.py:13-274`) -/
def algo (p : Params K) : Algo c K (Vars d K) := Algo.custom false (fun _ => pure 0) (pure ⟨[], []⟩) (initialization p) (evolve p)

theorem wok (hE : c.E.Lawful) (hP : c.P.Lawful) (hc : Accepted c 5) (p : Params K) (hsh : Shares c p) :
    (algo p : Algo c K (Vars d K)).WOk noErr (Inv.std c K (Ok c)) JT (Ok c) c.popSize c.popSize 0 0 (c.popSize + c.popSize) (c.popSize + 2 * (c.popSize * c.popSize)) := by
  have hpop := hc.pop
  unfold algo
  refine Algo.custom_wok (J := (Ok c)) (J0 := JT) (by omega) (fun x hx => by dgo) (by dgo) (by omega) (fun y hy => bt_none hE hP hsh) (fun y pop hy hl hp => bt_some hE hP hsh hl hp) (fun ep hep1 hep2 => ?_)
  unfold evolve
  refine WT.bind0 WT.get fun s hs => ?_
  have ok : Ok c s.ext := hs.ext
  have hlen := ok.len
  refine WT.bind0 (WT.draw (dt_moveFemales hE hP fun a ha => (ok.fem a ha).2)) fun moved hmoved => ?_
  refine WT.bindS (WT.evalAll hE fun q hq => by obtain ⟨a, ha, rfl⟩ := List.mem_map.1 hq; exact Inv.std_mk (hmoved.2 a ha)) (by rw [List.length_map, hmoved.1]; omega) fun fem hfem => ?_
  dsimp only
  rw [List.length_map, hmoved.1] at hfem ⊢
  refine WT.bind0 (WT.draw (DT.repM (Q := fun q : Vec d K × K => Feas c q.1) fun i hi => DT.bind (DT.nth_mem hi) fun x _ => dt_moveMale hE hP)) fun pend hpend => ?_
  refine WT.bindS (WT.evalAll hE fun q hq => Inv.std_mk (hpend.2 q hq)) (by rw [hpend.1]; omega) fun mal hmal => ?_
  rw [hpend.1] at hmal ⊢
  refine WT.bind0 (WT.draw (dt_reweigh fun a ha => ?_)) fun pop hpop => ?_
  · rcases List.mem_append.1 ha with h | h
    · exact ⟨(hfem.2 a h).1, (hfem.2 a h).2⟩
    · exact ⟨(hmal.2 a h).1, (hmal.2 a h).2⟩
  have hpl : pop.length = c.popSize := by rw [hpop.1, List.length_append, hfem.1, hmal.1]; exact hlen
  refine WT.bindS (wt_mating hE hP (by rw [List.length_take, List.length_drop, hpl]; omega)) (by omega) fun kids hkids => ?_
  refine WT.bind0 (WT.draw (DT.sortedPop hE)) fun sorted hsorted => ?_
  have hk : (sorted.take pop.length).length = c.popSize := by rw [List.length_take, hsorted.1, hpl]; have := hkids.1; omega
  refine WT.weaken (lo := 0) (hi := 0) (WT.bind0 (WT.draw (dt_reweigh fun a ha => ?_)) fun new hnew => ?_) (by omega) (by omega)
  · obtain ⟨k, hk', o, ho, rfl⟩ := mem_zipWith' ha
    split
    · exact hkids.2 k ((hsorted.2 k).1 (List.mem_of_mem_take hk'))
    · exact hpop.2 o ho
  · have hnl : new.length = c.popSize := by rw [hnew.1, List.length_zipWith, hk, hpl]; omega
    refine WT.bind0 (WT.setPop hnl fun a ha => Inv.std_ag (hnew.2 a ha)) fun _ _ => WT.modExt fun _ _ => ?_
    have hkl : (List.zipWith (fun (q : Agent d K K × Agent d K K) a => if compareTarget q.1.tgt q.2.tgt c.P.mm then q.2 else a) ((sorted.take pop.length).zip pop) new).length = c.popSize := by
      rw [List.length_zipWith, List.length_zip, hk, hpl, hnl]; omega
    have hkc : ∀ a ∈ List.zipWith (fun (q : Agent d K K × Agent d K K) a => if compareTarget q.1.tgt q.2.tgt c.P.mm then q.2 else a) ((sorted.take pop.length).zip pop) new, CF c a := fun a ha => by
      obtain ⟨q, hq, o, ho, rfl⟩ := mem_zipWith' ha
      split
      · exact hpop.2 _ (List.of_mem_zip hq).2
      · exact hnew.2 o ho
    exact ⟨by rw [List.length_take, List.length_drop]; omega, fun a ha => hkc a (List.mem_of_mem_take ha), fun a ha => hkc a (List.mem_of_mem_drop ha)⟩

theorem framed (hE : c.E.Lawful) (p : Params K) (ep : Nat) : Framed true (evolve p ep : M c K (Vars d K) Unit) := by
  unfold evolve; framed

end OriginalSSpiderO

namespace OriginalIMODE

/-- the hyper-parameters (`mealpy/sota_based/IMODE.py:69-70`) -/
structure Params where
  memory : Nat
  archive : Nat

/-- The attributes (`mealpy/sota_based/IMODE.py:75-87`); of the agents in the archive only the positions matter. -/
structure Vars (d : Nat) (K : Type) where
  probs : K × K × K
  memPos : Nat
  memF : List K
  memCr : List K
  archive : List (Vec d K)

/-- `initialize_variables` (`mealpy/sota_based/IMODE.py:75-83`) -/
def initVars (p : Params) : Vars d K := ⟨(1 / 3, 1 / 3, 1 / 3), 0, List.replicate p.memory 0.5, List.replicate p.memory 0.5, []⟩

/-- `before_main_loop` (`mealpy/sota_based/IMODE.py:85-87`); the other attributes are still as `initialize_variables` made them -/
def before (p : Params) (s : St c Unit (Vars d K)) : D c (Vars d K) := pure { (initVars p : Vars d K) with archive := s.pop.map (·.sol) }

/-- `_generate_parameters` (`mealpy/sota_based/IMODE.py:89-110`). A negative `F` is drawn again until it is positive; only the accepted draw is here. -/
def parameters (p : Params) (y : Vars d K) : D c (List K × List K) := do
  let idx ← repM c.popSize (fun _ => index p.memory)
  let cr ← repM c.popSize (fun i => do
    let k ← nth idx i
    let mu ← nth y.memCr k
    let z ← normal mu 0.1
    pure (clip (if mu = -1 then 0 else z) 0 1))
  let f ← repM c.popSize (fun i => do
    let k ← nth idx i
    let mu ← nth y.memF k
    let u ← random
    pure (clip (mu + 0.1 * Num.tan (Num.pi * (u - 0.5))) 0 1))
  pure (f, cr)

/-- `_select_operator_indices` (`mealpy/sota_based/IMODE.py:112-121`): the operator of each agent -/
def operators (y : Vars d K) : D c (List Nat) :=
  repM c.popSize (fun _ => do
    let r ← random
    pure (if r ≤ y.probs.1 then 0 else if r ≤ y.probs.1 + y.probs.2.1 then 1 else 2))

/-- `_generate_random_indices` (`mealpy/sota_based/IMODE.py:123-136`) for agent `i` -/
def partners (total i : Nat) : D c (Nat × Nat × Nat) := do
  let q ← choose2Without c.popSize [i]
  let x2 ← pickWithout total [i, q.1, q.2]
  pure (q.1, x2, q.2)

/-- `pbest_indices`, drawn for the whole population if some agent uses operator `o` (`mealpy/sota_based/IMODE.py:151-152`, 159-160 and 167-168) -/
def leaders (ops : List Nat) (o size : Nat) : D c (List Nat) :=
  if o ∈ ops then repM c.popSize (fun _ => index size) else pure (List.replicate c.popSize 0)

/-- `_mutation` (`mealpy/sota_based/IMODE.py:138-172`) -/
def mutation (y : Vars d K) (xs : List (Vec d K)) (f : List K) : D c (List (Vec d K)) := do
  let ops ← operators y
  let both := xs ++ y.archive
  let rs ← repM c.popSize (fun i => partners both.length i)
  let l0 ← leaders ops 0 (max (c.popSize / 4) 1)
  let l1 ← leaders ops 1 (max (c.popSize / 4) 1)
  let l2 ← leaders ops 2 (max (c.popSize / 2) 2)
  repM c.popSize (fun i => do
    let x ← nth xs i
    let fi ← nth f i
    let o ← nth ops i
    let r ← nth rs i
    let a ← nth xs r.1
    let b ← nth both r.2.1
    let e ← nth xs r.2.2
    let k ← nth (if o = 0 then l0 else if o = 1 then l1 else l2) i
    let lead ← nth xs k
    pure (fun j =>
      if o = 0 then x j + fi * (lead j - x j + a j - b j)
      else if o = 1 then x j + fi * (lead j - x j + a j - e j)
      else fi * a j + fi * (lead j - e j)))

/-- `_handle_boundaries` (`mealpy/sota_based/IMODE.py:174-206`) -/
def boundaries (xs : List (Vec d K)) : D c (List (Vec d K)) := do
  let strategy ← index 3
  repM xs.length (fun i => do
    let x ← nth xs i
    let y ← (if strategy = 0 then
        pure (fun j => if x j < c.P.lb j then (x j + c.P.ub j) / 2 else if c.P.ub j < x j then (x j + c.P.lb j) / 2 else x j)
      else if strategy = 1 then
        pure (fun j =>
          let r := if x j < c.P.lb j then clip (2 * c.P.lb j - x j) (c.P.lb j) (c.P.ub j) else x j
          if c.P.ub j < r then clip (2 * c.P.ub j - r) (c.P.lb j) (c.P.ub j) else r)
      else vecM (fun j => if x j < c.P.lb j ∨ c.P.ub j < x j then uniform (c.P.lb j) (c.P.ub j) else pure (x j)) : D c (Vec d K))
    pure (fun j => clip (y j) (c.P.lb j) (c.P.ub j)))

/-- the exponential crossover of one row: `while random() < cr and j < n_dims` (`mealpy/sota_based/IMODE.py:224-228`). The loop runs at most
`n_dims + 1` times. -/
def tail (x m : Vec d K) (cr : K) (start : Nat) : D c (Vec d K) := do
  let r ← iter (d + 1) (fun _ (st : Bool × Nat) =>
    if st.1 then do
      let u ← random
      if u < cr ∧ st.2 < d then pure (true, st.2 + 1) else pure (false, st.2)
    else pure st) (true, start)
  pure (fun j => if start ≤ j.val ∧ j.val < r.2 then m j else x j)

/-- `_crossover` (`mealpy/sota_based/IMODE.py:208-229`) -/
def crossover (xs ms : List (Vec d K)) (cr : List K) : D c (List (Vec d K)) := do
  let u ← random
  if u < 0.4 then do
    let masks ← repM c.popSize (fun i => do
      let k ← nth cr i
      let v ← randomVec
      pure (fun j : Fin d => decide (v j ≤ k)))
    repM c.popSize (fun i => do
      let x ← nth xs i
      let m ← nth ms i
      let b ← nth masks i
      if ∀ j, b j = false then do
        let k ← index d
        pure (fun j => if j.val = k then m j else x j)
      else pure (fun j => if b j then m j else x j))
  else do
    let starts ← repM c.popSize (fun _ => index d)
    repM c.popSize (fun i => do
      let x ← nth xs i
      let m ← nth ms i
      let k ← nth cr i
      let s ← nth starts i
      tail x m k s)

/-- the same key in a set: same hash and equal (`mealpy/utils/agent.py:97-106`). Different roundings with the same hash are left out. -/
def same (x y : Vec d K) : Bool := decide (∀ j, Num.ufunc "round6" (x j) = Num.ufunc "round6" (y j)) && allclose 1.0e-6 x y

/-- the elements of `set(l)`: the first of each kind -/
def distinct (l : List (Vec d K)) : List (Vec d K) := l.foldl (fun acc x => if acc.any (fun y => same y x) then acc else acc ++ [x]) []

/-- `_update_archive` (`mealpy/sota_based/IMODE.py:231-252`) -/
def remember (p : Params) (archive new : List (Vec d K)) : D c (List (Vec d K)) :=
  let all := archive ++ new
  if new.length = 0 then pure archive
  else if 1 < all.length then do
    let l ← inSomeOrder (distinct all)
    let size := max p.archive c.popSize
    if size < l.length then do
      let out ← choice l.length (l.length - size) false
      let keep ← inSomeOrder (rangeWithout l.length out)
      pure (keep.filterMap (fun i => l[i]?))
    else pure l
  else pure all

/-- the entries of a list whose flag is set -/
def masked (flags : List Bool) (l : List α) : List α := (l.zip flags).filterMap (fun q => if q.2 then some q.1 else none)

/-- the weighted Lehmer mean (`mealpy/sota_based/IMODE.py:309` and 314) -/
def lehmer (w v : List K) : K := sumL (List.zipWith (fun a b => a * Num.pow b 2) w v) / sumL (List.zipWith (fun a b => a * b) w v)

/-- the memory of successful parameters (`mealpy/sota_based/IMODE.py:300-320`) -/
def learn (p : Params) (y : Vars d K) (flags : List Bool) (f cr gains : List K) : Vars d K :=
  if flags.any id then
    let fs := masked flags f
    let crs := masked flags cr
    let gs := masked flags gains
    let w := gs.map (fun g => g / sumL gs)
    { y with
      memF := y.memF.set y.memPos (lehmer w fs)
      memCr := y.memCr.set y.memPos (if maxL crs = 0 then -1 else lehmer w crs)
      memPos := (y.memPos + 1) % p.memory }
  else y

/-- the mean gain of an operator (`mealpy/sota_based/IMODE.py:323-325`) -/
def gain (ops : List Nat) (rel : List K) (o : Nat) : K :=
  let l := masked (ops.map (fun k => decide (k = o))) rel
  if l.length = 0 then 0 else meanL l

/-- the new probabilities (`mealpy/sota_based/IMODE.py:323-332`) -/
def rates (ops : List Nat) (rel : List K) : K × K × K :=
  let a := gain ops rel 0
  let b := gain ops rel 1
  let e := gain ops rel 2
  let total := a + b + e
  if 0 < total then
    let a := clip (a / total) 0.1 0.9
    let b := clip (b / total) 0.1 0.9
    let e := clip (e / total) 0.1 0.9
    (a / (a + b + e), b / (a + b + e), e / (a + b + e))
  else (1 / 3, 1 / 3, 1 / 3)

/-- the new positions of one epoch, with the parameters (`mealpy/sota_based/IMODE.py:268-283`) -/
def children (y : Vars d K) (xs : List (Vec d K)) (f cr : List K) : D c (List (Vec d K × Unit)) := do
  let ms ← mutation y xs f
  let ms ← boundaries ms
  let xs ← crossover xs ms cr
  repM xs.length (fun i => do
    let x ← nth xs i
    let pos ← correct x
    pure (pos, ()))

/-- `OriginalIMODE.evolve` (`mealpy/sota_based/IMODE.py:254-335`). The comparison of line 284 leaves out `minmax` and always minimizes. -/
def evolve (p : Params) (_ep : Nat) : M c Unit (Vars d K) Unit := do
  let s ← get
  let q ← draw (parameters p s.ext)
  sortPop
  let s ← get
  let cr := q.2.insertionSort (fun a b => a ≤ b)
  let pend ← draw (children s.ext (s.pop.map (·.sol)) q.1 cr)
  let new ← evalAll pend
  let flags := List.zipWith (fun n o => compareTarget n.tgt o.tgt .min) new s.pop
  let gains := List.zipWith (fun n o => Num.abs (o.fit - n.fit)) new s.pop
  let ops ← draw (operators s.ext)
  let rel := List.zipWith (fun n o => max 0 ((o.fit - n.fit) / Num.abs o.fit)) new s.pop
  let archive ← draw (remember p s.ext.archive (masked flags (new.map (·.sol))))
  modExt (fun y => { learn p y flags q.1 cr gains with archive := archive, probs := rates ops rel })
  reshape (fun pop => List.zipWith (fun n o => if compareTarget n.tgt o.tgt .min then n else o) new pop)

/-- the memories are as long as asked for -/
structure Ok (p : Params) (y : Vars d K) : Prop where
  pos : y.memPos < p.memory
  f : y.memF.length = p.memory
  cr : y.memCr.length = p.memory

section

variable {p : Params} {y : Vars d K}

theorem dt_parameters (hE : c.E.Lawful) (hm : 2 ≤ p.memory) (h : Ok p y) :
    DT noErr (parameters p y : D c _) (fun q => q.1.length = c.popSize ∧ q.2.length = c.popSize) := by
  unfold parameters
  refine DT.bind (DT.repM fun i _ => DT.index hE (by omega)) fun idx hidx => ?_
  have hn : ∀ i, i < c.popSize → i < idx.length := fun i hi => by rw [hidx.1]; exact hi
  refine DT.bind (DT.repM (Q := fun _ => True) fun i hi => DT.bind (DT.nth_mem (hn i hi)) fun k hk => DT.bind (R := fun _ => True) (DT.mono (DT.nth_mem (by rw [h.cr]; exact hidx.2 k hk)) fun _ _ => trivial) fun mu _ =>
    DT.bind DT.normal fun z _ => DT.pure trivial) fun cr hcr => ?_
  exact DT.bind (DT.repM (Q := fun _ => True) fun i hi => DT.bind (DT.nth_mem (hn i hi)) fun k hk => DT.bind (R := fun _ => True) (DT.mono (DT.nth_mem (by rw [h.f]; exact hidx.2 k hk)) fun _ _ => trivial) fun mu _ =>
    DT.bind DT.random' fun z _ => DT.pure trivial) fun f hf => DT.pure ⟨hf.1, hcr.1⟩

theorem dt_operators : DT noErr (operators y : D c _) (fun l => l.length = c.popSize) := by
  unfold operators
  exact DT.mono (DT.repM (Q := fun _ => True) fun i _ => DT.bind DT.random' fun r _ => DT.pure trivial) fun _ h => h.1

theorem dt_partners (hE : c.E.Lawful) {total i : Nat} (hn : 4 ≤ c.popSize) (ht : c.popSize ≤ total) :
    DT noErr (partners total i : D c _) (fun q => q.1 < c.popSize ∧ q.2.1 < total ∧ q.2.2 < c.popSize) := by
  unfold partners
  exact DT.bind (DT.choose2Without hE (by simp; omega)) fun q hq => DT.bind (DT.pickWithout hE (by simp; omega)) fun x hx => DT.pure ⟨hq.1, hx.1, hq.2.1⟩

theorem dt_leaders (hE : c.E.Lawful) {ops : List Nat} {o size : Nat} (h1 : 0 < size) (h2 : size ≤ c.popSize) :
    DT noErr (leaders ops o size : D c _) (fun l => l.length = c.popSize ∧ ∀ k ∈ l, k < c.popSize) := by
  unfold leaders
  refine DT.ite (fun _ => DT.mono (DT.repM fun i _ => DT.index hE h1) fun l h => ⟨h.1, fun k hk => lt_of_lt_of_le (h.2 k hk) h2⟩) fun _ => DT.pure ⟨by simp, fun k hk => ?_⟩
  rw [(List.mem_replicate.1 hk).2]
  omega

theorem dt_mutation (hE : c.E.Lawful) (hn : 5 ≤ c.popSize) {xs : List (Vec d K)} {f : List K} (hx : xs.length = c.popSize) (hf : f.length = c.popSize) :
    DT noErr (mutation y xs f : D c _) (fun l => l.length = c.popSize) := by
  unfold mutation
  dsimp only
  refine DT.bind dt_operators fun ops hops => DT.bind (DT.repM fun i _ => dt_partners hE (by omega) (by rw [List.length_append]; omega)) fun rs hrs => ?_
  refine DT.bind (dt_leaders hE (by omega) (by omega)) fun l0 h0 => DT.bind (dt_leaders hE (by omega) (by omega)) fun l1 h1 => DT.bind (dt_leaders hE (by omega) (by omega)) fun l2 h2 => ?_
  refine DT.mono (DT.repM (Q := fun _ => True) fun i hi => ?_) fun _ h => h.1
  have tt : ∀ {α : Type} {l : List α} {k : Nat}, k < l.length → DT noErr (nth (c := c) l k) (fun _ => True) := fun h => DT.mono (DT.nth_mem h) fun _ _ => trivial
  refine DT.bind (tt (by omega)) fun x _ => DT.bind (tt (by omega)) fun fi _ => DT.bind (tt (by omega)) fun o _ => DT.bind (DT.nth_mem (by omega)) fun r hr => ?_
  have hr' := hrs.2 r hr
  refine DT.bind (tt (by omega)) fun a _ => DT.bind (tt hr'.2.1) fun b _ => DT.bind (tt (by omega)) fun e _ => ?_
  have hl : (if o = 0 then l0 else if o = 1 then l1 else l2).length = c.popSize ∧ ∀ k ∈ (if o = 0 then l0 else if o = 1 then l1 else l2), k < c.popSize := by
    split
    · exact h0
    · split
      · exact h1
      · exact h2
  exact DT.bind (DT.nth_mem (by rw [hl.1]; exact hi)) fun k hk => DT.bind (tt (by have := hl.2 k hk; omega)) fun lead _ => DT.pure trivial

theorem dt_boundaries (hE : c.E.Lawful) {xs : List (Vec d K)} : DT noErr (boundaries xs : D c _) (fun l => l.length = xs.length) := by
  unfold boundaries
  refine DT.bind (DT.index hE (by omega)) fun st _ => DT.mono (DT.repM (Q := fun _ => True) fun i hi => ?_) fun _ h => h.1
  refine DT.bind (DT.nth_mem hi) fun x _ => DT.bind (R := fun _ => True) (DT.ite (fun _ => DT.pure trivial) fun _ => DT.ite (fun _ => DT.pure trivial) fun _ => ?_) fun z _ => DT.pure trivial
  exact DT.vecMT fun j => DT.ite (fun _ => DT.uniform') fun _ => DT.pure trivial

theorem dt_crossover (hE : c.E.Lawful) (hd : 0 < d) {xs ms : List (Vec d K)} {cr : List K} (hx : xs.length = c.popSize) (hm : ms.length = c.popSize) (hcr : cr.length = c.popSize) :
    DT noErr (crossover xs ms cr : D c _) (fun l => l.length = c.popSize) := by
  unfold crossover
  have tt : ∀ {α : Type} {l : List α} {k : Nat}, k < l.length → DT noErr (nth (c := c) l k) (fun _ => True) := fun h => DT.mono (DT.nth_mem h) fun _ _ => trivial
  refine DT.bind DT.random' fun u _ => DT.ite (fun _ => ?_) fun _ => ?_
  · refine DT.bind (DT.repM (Q := fun _ => True) fun i hi => DT.bind (tt (by omega)) fun k _ => DT.bind DT.randomVec fun v _ => DT.pure trivial) fun masks hmasks => ?_
    refine DT.mono (DT.repM (Q := fun _ => True) fun i hi => DT.bind (tt (by omega)) fun x _ => DT.bind (tt (by omega)) fun m _ => DT.bind (tt (by rw [hmasks.1]; exact hi)) fun b _ => ?_) fun _ h => h.1
    exact DT.ite (fun _ => DT.bind (DT.index hE hd) fun k _ => DT.pure trivial) fun _ => DT.pure trivial
  · refine DT.bind (DT.repM (Q := fun _ => True) fun i hi => DT.mono (DT.index hE hd) fun _ _ => trivial) fun starts hst => ?_
    refine DT.mono (DT.repM (Q := fun _ => True) fun i hi => DT.bind (tt (by omega)) fun x _ => DT.bind (tt (by omega)) fun m _ => DT.bind (tt (by omega)) fun k _ => DT.bind (tt (by rw [hst.1]; exact hi)) fun s _ => ?_) fun _ h => h.1
    unfold tail
    refine DT.bind (DT.iterT fun _ st _ => DT.ite (fun _ => DT.bind DT.random' fun u _ => DT.ite (fun _ => DT.pure trivial) fun _ => DT.pure trivial) fun _ => DT.pure trivial) fun r _ => DT.pure trivial

theorem dt_children (hE : c.E.Lawful) (hP : c.P.Lawful) (hn : 5 ≤ c.popSize) (hd : 0 < d) {xs : List (Vec d K)} {f cr : List K} (hx : xs.length = c.popSize) (hf : f.length = c.popSize)
    (hcr : cr.length = c.popSize) : DT noErr (children y xs f cr : D c _) (fun l => l.length = c.popSize ∧ ∀ q ∈ l, Feas c q.1) := by
  unfold children
  refine DT.bind (dt_mutation hE hn hx hf) fun ms hms => DT.bind (dt_boundaries hE) fun ms' hms' => DT.bind (dt_crossover hE hd hx (hms'.trans hms) hcr) fun ts hts => ?_
  refine DT.mono (DT.repM (Q := fun q : Vec d K × Unit => Feas c q.1) fun i hi => DT.bind (DT.nth_mem hi) fun x _ => DT.bind (DT.correct hP) fun pos hp => DT.pure hp) fun l h => ⟨h.1.trans hts, h.2⟩

theorem dt_remember (hE : c.E.Lawful) {archive new : List (Vec d K)} : DT noErr (remember p archive new : D c _) (fun _ => True) := by
  unfold remember
  dsimp only
  refine DT.ite (fun _ => DT.pure trivial) fun _ => DT.ite (fun _ => ?_) fun _ => DT.pure trivial
  refine DT.bind (DT.inSomeOrder hE) fun l _ => DT.ite (fun _ => ?_) fun _ => DT.pure trivial
  exact DT.bind (DT.choice hE (OriginalCRO.choice_ok (by omega))) fun out _ => DT.bind (DT.inSomeOrder hE) fun keep _ => DT.pure trivial

theorem learn_ok (h : Ok p y) {flags : List Bool} {f cr gains : List K} : Ok p (learn p y flags f cr gains) := by
  unfold learn
  split
  · exact ⟨Nat.mod_lt _ (by have := h.pos; omega), (List.length_set ..).trans h.f, (List.length_set ..).trans h.cr⟩
  · exact h

end

theorem dt_before {p : Params} (hm : 2 ≤ p.memory) {s : St c Unit (Vars d K)} : DT noErr (before p s : D c _) (Ok p) :=
  DT.pure ⟨show 0 < p.memory by omega, List.length_replicate, List.length_replicate⟩

/-- `OriginalIMODE` (`mealpy/sota_based/IMODE.py:13-335`) -/
def algo (p : Params) : Algo c Unit (Vars d K) := Algo.pre true (fun _ => pure ()) (pure (initVars p)) (before p) (evolve p)

theorem wok (hE : c.E.Lawful) (hP : c.P.Lawful) (hc : Accepted c 5) (p : Params) (hd : 0 < d) (hm : 2 ≤ p.memory) :
    (algo p : Algo c Unit (Vars d K)).WOk noErr (Inv.std c Unit (Ok p)) JT JT c.popSize c.popSize 0 0 c.popSize c.popSize := by
  have hpop := hc.pop
  unfold algo
  refine Algo.pre_wok (J := (Ok p)) hE hP (by omega) (fun x hx => by dgo) (by dgo) (by intro s hs; exact dt_before hm) (fun ep hep1 hep2 => ?_)
  unfold evolve
  refine WT.bind0 WT.get fun s hs => ?_
  refine WT.bind0 (WT.draw (dt_parameters hE hm hs.ext)) fun q hq => WT.bind0 (WT.sortPop hE) fun _ _ => WT.bind0 WT.get fun s hs => ?_
  dsimp only
  have hlen : s.pop.length = c.popSize := hs.len
  refine WT.bind0 (WT.draw (dt_children hE hP (by omega) hd (by rw [List.length_map]; exact hlen) hq.1 (by rw [List.length_insertionSort]; exact hq.2))) fun pend hpend => ?_
  refine WT.bindS (WT.evalAll hE fun q hq => Inv.std_mk (hpend.2 q hq)) (by rw [hpend.1]) fun new hnew => ?_
  refine WT.weaken (WT.bind0 (WT.draw dt_operators) fun ops _ => WT.bind0 (WT.draw (dt_remember hE)) fun archive _ => ?_) (lo := 0) (hi := 0) (by rw [hpend.1]; omega) (by omega)
  refine WT.bind0 (WT.modExt fun y hy => ?_) fun _ _ => WT.reshape fun pop hpl hag => ⟨?_, fun a ha => ?_⟩
  · have h := learn_ok hy (flags := List.zipWith (fun n o => compareTarget n.tgt o.tgt .min) new s.pop) (f := q.1) (cr := q.2.insertionSort (fun a b => a ≤ b)) (gains := List.zipWith (fun n o => Num.abs (o.fit - n.fit)) new s.pop)
    exact ⟨h.pos, h.f, h.cr⟩
  · have : pop.length = c.popSize := hpl
    show (List.zipWith _ new pop).length = c.popSize
    rw [List.length_zipWith, this, hnew.1, hpend.1, Nat.min_self]
  · obtain ⟨n, hn, o, ho, rfl⟩ := mem_zipWith' ha
    split
    · exact hnew.2 n hn
    · exact hag o ho

theorem framed (hE : c.E.Lawful) (p : Params) (ep : Nat) : Framed true (evolve p ep : M c Unit (Vars d K) Unit) := by
  unfold evolve; framed

end OriginalIMODE

end Mealpy
