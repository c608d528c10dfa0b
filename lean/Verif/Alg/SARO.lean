import Verif.Alg.Kit18

/-! # Search and Rescue Optimization (`mealpy/human_based/SARO.py`)

The population holds `2 * pop_size` agents: the humans and the clues they left. -/

set_option linter.unusedSectionVars false
set_option linter.unusedVariables false

namespace Mealpy
open Spec

variable {d : Nat} {K : Type} [Num K] {c : Cfg d K}

namespace SARO

/-- the hyper-parameters (`mealpy/human_based/SARO.py:66-67`) -/
structure Params (K : Type) where
  se : K
  mu : Nat

/-- `initialization` (`mealpy/human_based/SARO.py:71-78`) -/
def initialization (y : List Nat) (q : Option (List (Agent d K Unit))) : B c (List (Agent d K Unit) × List Nat) := do
  let pop ← (match q with
    | none => generatePopulation (fun _ => pure ()) (2 * c.popSize)
    | some l => do
      let more ← generatePopulation (fun _ => pure ()) c.popSize
      pure (l ++ more) : B c (List (Agent d K Unit)))
  pure (pop, y)

/-- the humans, their memory and the numbers of unsuccessful searches: `pop_x`, `pop_m` and `dyn_USN` -/
abbrev Team (d : Nat) (K : Type) : Type := List (Agent d K Unit) × List (Agent d K Unit) × List Nat

/-- a found clue (`mealpy/human_based/SARO.py:111-116, 131-136, 231-236, 256-261`) -/
def accept (new : List (Agent d K Unit)) (idx : Nat) (q : Team d K) : D c (Team d K) := do
  let a ← nth new idx
  let x ← nth q.1 idx
  if compareTarget a.tgt x.tgt c.P.mm then do
    let r ← index c.popSize
    pure (q.1.set idx a, q.2.1.set r x, q.2.2.set idx 0)
  else do
    let u ← nth q.2.2 idx
    pure (q.1, q.2.1, q.2.2.set idx (u + 1))

/-- as `accept`, and whoever searched in vain for too long starts anew (`mealpy/human_based/SARO.py:130-139, 255-265`) -/
def acceptOrLeave (p : Params K) (new : List (Agent d K Unit)) (idx : Nat) (q : Team d K) : M c Unit (List Nat) (Team d K) := do
  let q ← draw (accept new idx q)
  let u ← draw (nth q.2.2 idx)
  if p.mu < u then do
    let a ← liftB (generateAgent (fun _ => pure ()))
    pure (q.1.set idx a, q.2.1, q.2.2.set idx 0)
  else pure q

/-- The two phases (`mealpy/human_based/SARO.py:85-140, 196-266`): `first` makes the social phase's position from the population, `second` the
individual phase's from the team. -/
def phases (p : Params K) (first : List (Agent d K Unit) → Nat → D c (Vec d K)) (second : St c Unit (List Nat) → Team d K → Nat → D c (Vec d K)) :
    M c Unit (List Nat) Unit := do
  let s ← get
  let new ← buildEval c.popSize (fun _ idx => do
    let x ← first s.pop idx
    let pos ← correctWith amendRandom x
    pure (pos, ()))
  let q ← draw (iter c.popSize (accept new) (s.pop.take c.popSize, s.pop.drop c.popSize, s.ext))
  let new ← buildEval c.popSize (fun _ idx => do
    let x ← second s q idx
    let pos ← correctWith amendRandom x
    pure (pos, ()))
  let q ← iter c.popSize (acceptOrLeave p new) q
  modExt (fun _ => q.2.2)
  setPop (q.1 ++ q.2.1)

/-- humans, memory and counters have their sizes; every agent is coherent and feasible -/
structure Whole (c : Cfg d K) (q : Team d K) : Prop where
  humans : q.1.length = c.popSize ∧ ∀ a ∈ q.1, CF c a
  memory : q.2.1.length = c.popSize ∧ ∀ a ∈ q.2.1, CF c a
  counts : q.2.2.length = c.popSize

/-- two agents for each of `pop_size` -/
def Double (c : Cfg d K) : Nat → Prop := fun n => n = 2 * c.popSize

/-- one counter for each human -/
def Counts (c : Cfg d K) : List Nat → Prop := fun l => l.length = c.popSize

theorem bt_none (hE : c.E.Lawful) (hP : c.P.Lawful) {y : List Nat} (hy : Counts c y) :
    BT noErr (2 * c.popSize) (2 * c.popSize) (initialization y none : B c _) (fun r => Double c r.1.length ∧ (∀ a ∈ r.1, CF c a) ∧ Counts c r.2) := by
  unfold initialization
  exact BT.bindS (BT.generatePopulation hE hP fun x _ => DT.pure trivial) le_rfl fun pop hpop =>
    BT.weaken (BT.pure ⟨hpop.1, hpop.2, hy⟩) (by omega) (by omega)

theorem bt_some (hE : c.E.Lawful) (hP : c.P.Lawful) {y : List Nat} (hy : Counts c y) {pop : List (Agent d K Unit)} (hl : pop.length = c.popSize) (hc : ∀ a ∈ pop, CF c a) :
    BT noErr (2 * c.popSize - c.popSize) (2 * c.popSize - c.popSize) (initialization y (some pop) : B c _)
      (fun r => Double c r.1.length ∧ (∀ a ∈ r.1, CF c a) ∧ Counts c r.2) := by
  unfold initialization
  refine BT.bindS (R := fun l => Double c l.length ∧ ∀ a ∈ l, CF c a) (l1 := c.popSize) (h1 := c.popSize) (BT.bindS (BT.generatePopulation hE hP fun x _ => DT.pure trivial) le_rfl fun more hm =>
    BT.weaken (BT.pure ⟨?_, fun a ha => ?_⟩) (by omega) (by omega)) (by omega) fun pop hpop => BT.weaken (BT.pure ⟨hpop.1, hpop.2, hy⟩) (by omega) (by omega)
  · simp only [Double, List.length_append, hl, hm.1]; omega
  · rcases List.mem_append.1 ha with g | g
    · exact hc a g
    · exact hm.2 a g

theorem cf_set {l : List (Agent d K Unit)} {i : Nat} {a : Agent d K Unit} (h : ∀ b ∈ l, CF c b) (ha : CF c a) : ∀ b ∈ l.set i a, CF c b := by
  intro b hb
  rcases List.mem_or_eq_of_mem_set hb with g | rfl
  · exact h b g
  · exact ha

theorem dt_accept (hE : c.E.Lawful) {new : List (Agent d K Unit)} (hn : new.length = c.popSize ∧ ∀ a ∈ new, CF c a) {idx : Nat} (hi : idx < c.popSize) {q : Team d K}
    (hq : Whole c q) : DT noErr (accept new idx q : D c _) (Whole c) := by
  unfold accept
  obtain ⟨h1, h2, h3⟩ := hq
  refine DT.bind (DT.nth_mem (by omega)) fun a ha => DT.bind (DT.nth_mem (by omega)) fun x hx => DT.ite (fun _ => ?_) fun _ => ?_
  · refine DT.bind (DT.index hE (by omega)) fun r hr => DT.pure ⟨⟨by simpa using h1.1, cf_set h1.2 (hn.2 a ha)⟩, ⟨by simpa using h2.1, cf_set h2.2 (h1.2 x hx)⟩, by simpa using h3⟩
  · exact DT.bind (DT.nth_mem (by omega)) fun u _ => DT.pure ⟨h1, h2, by simpa using h3⟩

theorem wt_accept (hE : c.E.Lawful) (hP : c.P.Lawful) {p : Params K} {new : List (Agent d K Unit)} (hn : new.length = c.popSize ∧ ∀ a ∈ new, CF c a) {idx : Nat}
    (hi : idx < c.popSize) {q : Team d K} (hq : Whole c q) :
    WT noErr (Inv.sized c Unit (Double c) (Counts c)) 0 1 (acceptOrLeave p new idx q : M c Unit (List Nat) _) (Whole c) := by
  unfold acceptOrLeave
  refine WT.bind0 (WT.draw (dt_accept hE hn hi hq)) fun q ⟨h1, h2, h3⟩ => WT.bind0 (WT.draw (DT.nth_mem (by omega))) fun u _ => WT.ite (fun _ => ?_) fun _ => WT.weaken (WT.pure ⟨h1, h2, h3⟩) (by omega) (by omega)
  exact WT.bindS (WT.generateAgent hP (Inv.sized_box fun x _ => DT.pure trivial)) (by omega) fun a ha =>
    WT.weaken (WT.pure ⟨⟨by simpa using h1.1, cf_set h1.2 ha⟩, h2, by simpa using h3⟩) (by omega) (by omega)

theorem wt_phases (hE : c.E.Lawful) (hP : c.P.Lawful) {p : Params K} {first : List (Agent d K Unit) → Nat → D c (Vec d K)}
    {second : St c Unit (List Nat) → Team d K → Nat → D c (Vec d K)}
    (h1 : ∀ pop idx, pop.length = 2 * c.popSize → idx < c.popSize → DT noErr (first pop idx) (fun _ => True))
    (h2 : ∀ s q idx, Whole c q → idx < c.popSize → DT noErr (second s q idx) (fun _ => True)) :
    WT noErr (Inv.sized c Unit (Double c) (Counts c)) (2 * c.popSize) (3 * c.popSize) (phases p first second : M c Unit (List Nat) Unit) (fun _ => True) := by
  unfold phases
  refine WT.bind0 WT.get fun s hs => ?_
  have hl : s.pop.length = 2 * c.popSize := hs.len
  refine WT.bindS (WT.buildEval hE fun s' i _ hi => DT.bind (h1 s.pop i hl hi) fun x _ => DT.bind (DT.correctWith hP DT.amendRandom) fun pos hp => DT.pure ⟨hp, hp⟩) (by omega) fun new hnew => ?_
  have hn : new.length = c.popSize ∧ ∀ a ∈ new, CF c a := hnew
  have h0 : Whole c ((s.pop.take c.popSize, s.pop.drop c.popSize, s.ext) : Team d K) :=
    ⟨⟨by simp; omega, fun a ha => hs.pop a (List.mem_of_mem_take ha)⟩, ⟨by simp; omega, fun a ha => hs.pop a (List.mem_of_mem_drop ha)⟩, hs.ext⟩
  refine WT.bind0 (WT.draw (DT.iter (I := fun _ => Whole c) _ h0 fun i q hi hq => dt_accept hE hn hi hq)) fun q hq => ?_
  refine WT.bindS (WT.buildEval hE fun s' i _ hi => DT.bind (h2 s q i hq hi) fun x _ => DT.bind (DT.correctWith hP DT.amendRandom) fun pos hp => DT.pure ⟨hp, hp⟩) (by omega) fun new hnew => ?_
  have hn : new.length = c.popSize ∧ ∀ a ∈ new, CF c a := hnew
  refine WT.bindS (l1 := 0) (h1 := c.popSize) (R := Whole c) (WT.weaken (WT.iter (lo := 0) (hi := 1) (fun _ => Whole c) c.popSize hq fun i q hi hq => wt_accept hE hP hn hi hq) (by omega) (by omega)) (by omega) fun q hq => ?_
  refine WT.bind0 (WT.modExt fun y _ => hq.counts) fun _ _ => WT.weaken (WT.setPop ?_ fun a ha => ?_) (by omega) (by omega)
  · show (q.1 ++ q.2.1).length = 2 * c.popSize
    rw [List.length_append, hq.humans.1, hq.memory.1]; omega
  · rcases List.mem_append.1 ha with g | g
    · exact hq.humans.2 a g
    · exact hq.memory.2 a g

theorem framed_acceptOrLeave (hE : c.E.Lawful) {q : Bool} {p : Params K} {new : List (Agent d K Unit)} {idx : Nat} {t : Team d K} :
    Framed q (acceptOrLeave p new idx t : M c Unit (List Nat) _) := by
  unfold acceptOrLeave; framed

macro_rules
  | `(tactic| fprim) => `(tactic| (at_last SARO.acceptOrLeave; exact SARO.framed_acceptOrLeave (by assumption)))

theorem framed_phases (hE : c.E.Lawful) {q : Bool} {p : Params K} {first : List (Agent d K Unit) → Nat → D c (Vec d K)}
    {second : St c Unit (List Nat) → Team d K → Nat → D c (Vec d K)} : Framed q (phases p first second : M c Unit (List Nat) Unit) := by
  unfold phases; framed

end SARO

namespace DevSARO
open SARO

/-- the social phase (`mealpy/human_based/SARO.py:97-103`); the fitnesses are compared with `<` whatever the direction -/
def social (p : Params K) (pop : List (Agent d K Unit)) (idx : Nat) : D c (Vec d K) := do
  let k ← pickWithout (2 * c.popSize) [idx]
  let x ← nth pop idx
  let b ← nth pop k
  let u1 ← uniform 0 1
  let u2 ← uniform 0 1
  let r ← uniformVec (fun _ => 0) (fun _ => 1)
  pure (fun j => if r j < p.se ∧ b.fit < x.fit then b.sol j + u1 * (x.sol j - b.sol j) else x.sol j + u2 * (x.sol j - b.sol j))

/-- the individual phase (`mealpy/human_based/SARO.py:121-123`) -/
def individual (s : St c Unit (List Nat)) (q : Team d K) (idx : Nat) : D c (Vec d K) := do
  let ks ← choose2Without (2 * c.popSize) [idx]
  let u ← uniform 0 1
  let a ← nth (q.1 ++ q.2.1) ks.1
  let b ← nth (q.1 ++ q.2.1) ks.2
  pure (fun j => s.gbest.sol j + u * (a.sol j - b.sol j))

/-- `DevSARO.evolve` (`mealpy/human_based/SARO.py:85-140`) -/
def evolve (p : Params K) (_ep : Nat) : M c Unit (List Nat) Unit := phases p (social p) individual

/-- `DevSARO` (`mealpy/human_based/SARO.py:12-140`) -/
def algo (p : Params K) : Algo c Unit (List Nat) := Algo.custom true (fun _ => pure ()) (pure (List.replicate c.popSize 0)) initialization (evolve p)

theorem wok (hE : c.E.Lawful) (hP : c.P.Lawful) (hc : Accepted c 5) (p : Params K) :
    (algo p : Algo c Unit (List Nat)).WOk noErr (Inv.sized c Unit (Double c) (Counts c)) (Counts c) (Counts c) (2 * c.popSize) (2 * c.popSize) 0 0 (2 * c.popSize) (3 * c.popSize) := by
  have hpop := hc.pop
  unfold algo
  refine Algo.custom_wokS (fun n hn => by have : n = 2 * c.popSize := hn; omega) (fun x hx => DT.pure trivial) (DT.pure (by simp [Counts])) (by omega) (fun y hy => bt_none hE hP hy)
    (fun y pop hy hl hp => bt_some hE hP hy hl hp) (fun ep _ _ => ?_)
  unfold evolve
  refine wt_phases hE hP (fun pop idx hl hi => ?_) fun s q idx hq hi => ?_
  · unfold social
    refine DT.bind (DT.pickWithout hE (by simp; omega)) fun k hk => ?_
    have := hk.1
    exact DT.bind (DT.nth_mem (by omega)) fun x _ => DT.bind (DT.nth_mem (by omega)) fun b _ => DT.bind DT.uniform' fun _ _ => DT.bind DT.uniform' fun _ _ =>
      DT.bind DT.uniformVec' fun _ _ => DT.pure trivial
  · unfold individual
    have hl : (q.1 ++ q.2.1).length = 2 * c.popSize := by rw [List.length_append, hq.humans.1, hq.memory.1]; omega
    refine DT.bind (DT.choose2Without hE (by simp; omega)) fun ks hk => ?_
    have h1 := hk.1
    have h2 := hk.2.1
    exact DT.bind DT.uniform' fun _ _ => DT.bind (DT.nth_mem (by omega)) fun _ _ => DT.bind (DT.nth_mem (by omega)) fun _ _ => DT.pure trivial

theorem framed (hE : c.E.Lawful) (p : Params K) (ep : Nat) : Framed true (evolve p ep : M c Unit (List Nat) Unit) := framed_phases hE

end DevSARO

namespace OriginalSARO
open SARO

/-- a coordinate outside the bounds goes half the way (`mealpy/human_based/SARO.py:220-223, 245-248`) -/
def halfway (lb ub x y : K) : K :=
  let y := if y < lb then (x + lb) / 2 else y
  if y > ub then (x + ub) / 2 else y

/-- the social phase (`mealpy/human_based/SARO.py:208-223`) -/
def social (p : Params K) (pop : List (Agent d K Unit)) (idx : Nat) : D c (Vec d K) := do
  let k ← pickWithout (2 * c.popSize) [idx]
  let x ← nth pop idx
  let b ← nth pop k
  let jr ← index d
  let r1 ← uniform (-1) 1
  vecM (fun j => do
    let u ← uniform 0 1
    let y : K := if u < p.se ∨ j.val = jr then
        (if compareTarget b.tgt x.tgt c.P.mm then b.sol j + r1 * (x.sol j - b.sol j) else x.sol j + r1 * (x.sol j - b.sol j))
      else x.sol j
    pure (halfway (c.P.lb j) (c.P.ub j) (x.sol j) y))

/-- the individual phase (`mealpy/human_based/SARO.py:242-248`) -/
def individual (_s : St c Unit (List Nat)) (q : Team d K) (idx : Nat) : D c (Vec d K) := do
  let ks ← choose2Without (2 * c.popSize) [idx]
  let x ← nth q.1 idx
  let u ← uniform 0 1
  let a ← nth (q.1 ++ q.2.1) ks.1
  let b ← nth (q.1 ++ q.2.1) ks.2
  pure (fun j => halfway (c.P.lb j) (c.P.ub j) (x.sol j) (x.sol j + u * (a.sol j - b.sol j)))

/-- `OriginalSARO.evolve` (`mealpy/human_based/SARO.py:196-266`) -/
def evolve (p : Params K) (_ep : Nat) : M c Unit (List Nat) Unit := phases p (social p) individual

/-- `OriginalSARO` (`mealpy/human_based/SARO.py:143-266`) -/
def algo (p : Params K) : Algo c Unit (List Nat) := Algo.custom true (fun _ => pure ()) (pure (List.replicate c.popSize 0)) initialization (evolve p)

theorem wok (hE : c.E.Lawful) (hP : c.P.Lawful) (hc : Accepted c 5) (p : Params K) (hd : 0 < d) :
    (algo p : Algo c Unit (List Nat)).WOk noErr (Inv.sized c Unit (Double c) (Counts c)) (Counts c) (Counts c) (2 * c.popSize) (2 * c.popSize) 0 0 (2 * c.popSize) (3 * c.popSize) := by
  have hpop := hc.pop
  unfold algo
  refine Algo.custom_wokS (fun n hn => by have : n = 2 * c.popSize := hn; omega) (fun x hx => DT.pure trivial) (DT.pure (by simp [Counts])) (by omega) (fun y hy => bt_none hE hP hy)
    (fun y pop hy hl hp => bt_some hE hP hy hl hp) (fun ep _ _ => ?_)
  unfold evolve
  refine wt_phases hE hP (fun pop idx hl hi => ?_) fun s q idx hq hi => ?_
  · unfold social
    refine DT.bind (DT.pickWithout hE (by simp; omega)) fun k hk => ?_
    have := hk.1
    exact DT.bind (DT.nth_mem (by omega)) fun x _ => DT.bind (DT.nth_mem (by omega)) fun b _ => DT.bind (DT.index hE hd) fun _ _ => DT.bind DT.uniform' fun _ _ =>
      DT.vecMT fun j => DT.bind DT.uniform' fun _ _ => DT.pure trivial
  · unfold individual
    have hl : (q.1 ++ q.2.1).length = 2 * c.popSize := by rw [List.length_append, hq.humans.1, hq.memory.1]; omega
    have hx := hq.humans.1
    refine DT.bind (DT.choose2Without hE (by simp; omega)) fun ks hk => ?_
    have h1 := hk.1
    have h2 := hk.2.1
    exact DT.bind (DT.nth_mem (by omega)) fun _ _ => DT.bind DT.uniform' fun _ _ => DT.bind (DT.nth_mem (by omega)) fun _ _ => DT.bind (DT.nth_mem (by omega)) fun _ _ => DT.pure trivial

theorem framed (hE : c.E.Lawful) (p : Params K) (ep : Nat) : Framed true (evolve p ep : M c Unit (List Nat) Unit) := framed_phases hE

end OriginalSARO

end Mealpy
