import Verif.Alg.Kit19

/-! # Differential evolution with self-adaptive populations (`mealpy/evolutionary_based/DE.py:441-573`)

The population changes its size in every epoch. -/

set_option linter.unusedSectionVars false
set_option linter.unusedVariables false

namespace Mealpy
open Spec

variable {d : Nat} {K : Type} [Num K] {c : Cfg d K}

namespace SAP_DE

/-- the rates and the population size an agent proposes (`mealpy/evolutionary_based/DE.py:490-499`) -/
structure Own (K : Type) where
  cr : K
  mr : K
  ps : K

/-- `int(x)` as a number -/
def int (x : K) : K := Num.ofInt (Num.trunc x)

/-- `generate_empty_agent` (`mealpy/evolutionary_based/DE.py:490-499`); `abs` says that `branch` is `"ABS"` -/
def mkExt (abs : Bool) (_ : Vec d K) : D c (Own K) := do
  let cr ← uniform 0 1
  let mr ← uniform 0 1
  let e ← (if abs then normal 0 1 else uniform (-0.5) 0.5 : D c K)
  pure ⟨cr, mr, int (♯(10 * d) + e)⟩

/-- `edit_to_range__(var, 0, 1, random)`, the number it ends with (`mealpy/evolutionary_based/DE.py:501-507`) -/
def toRange (x : K) : D c K := if 0 < x ∧ x < 1 then pure x else dist "edit_to_range" [x]

/-- a position with what its agent carries, and its target if it is a copy -/
abbrev Pend (d : Nat) (K : Type) : Type := (Vec d K × Own K) × Option (Target K)

/-- `agent.update` after `generate_empty_agent`; skipped in the pool modes (`mealpy/evolutionary_based/DE.py:534-538`) -/
def dress (abs : Bool) (x : Vec d K) (e : Own K) : D c (Pend d K) := do
  let f ← mkExt abs x
  pure ((x, if c.swarmLike then f else e), none)

/-- crossover, or a copy (`mealpy/evolutionary_based/DE.py:522-540`) -/
def cross (abs : Bool) (F : K) (own a b e : Agent d K (Own K)) (go : Bool) : D c (Pend d K) :=
  if go then do
    let ps : K := if abs then a.ext.ps + int (F * (b.ext.ps - e.ext.ps)) else a.ext.ps + F * (b.ext.ps - e.ext.ps)
    let pos ← correct (fun j => a.sol j + F * (b.sol j - e.sol j))
    let cr ← toRange (a.ext.cr + F * (b.ext.cr - e.ext.cr))
    let mr ← toRange (a.ext.mr + F * (b.ext.mr - e.ext.mr))
    dress abs pos ⟨cr, mr, ps⟩
  else pure ((own.sol, own.ext), some own.tgt)

/-- mutation (`mealpy/evolutionary_based/DE.py:541-555`) -/
def mutate (abs : Bool) (own a : Agent d K (Own K)) : D c (List (Pend d K)) := do
  let u ← uniform 0 1
  if u < a.ext.mr then do
    let n ← normalS 0 a.ext.mr
    let cr ← normal 0 1
    let mr ← normal 0 1
    let ps ← (if abs then do
        let z ← normal 0.5 1
        pure (own.ext.ps + int z)
      else do
        let z ← normalS 0 a.ext.mr
        pure (own.ext.ps + z) : D c K)
    let pos ← correct (fun j => own.sol j + n)
    let q ← dress abs pos ⟨cr, mr, ps⟩
    pure [q]
  else pure []

/-- one agent's offspring (`mealpy/evolutionary_based/DE.py:517-555`) -/
def breed (abs : Bool) (pop : List (Agent d K (Own K))) (idx : Nat) : D c (List (Pend d K)) := do
  let ks ← choose3Without pop.length [idx]
  let j ← index pop.length
  let F ← normal 0 1
  let u ← uniform 0 1
  let own ← nth pop idx
  let a ← nth pop ks.1
  let b ← nth pop ks.2.1
  let e ← nth pop ks.2.2
  let q ← cross abs F own a b e (decide (u < own.ext.cr ∨ idx = j))
  let l ← mutate abs own a
  pure (q :: l)

/-- the evaluations: in mode `single` those that are not copies, in the other modes all of them, copies too
(`mealpy/evolutionary_based/DE.py:536-537`, `553-554` and `556`) -/
def evalNew (pend : List (Pend d K)) : M c (Own K) Unit (List (Agent d K (Own K))) :=
  if c.swarmLike then evalAll (pend.map (·.1))
  else iter pend.length (fun i acc => do
    let q ← draw (nth pend i)
    match q.2 with
    | some t => pure (acc ++ [⟨q.1.1, t, q.1.2⟩])
    | none => do
      let t ← liftB (getTarget q.1.1)
      pure (acc ++ [⟨q.1.1, t, q.1.2⟩])) []

/-- the new population size (`mealpy/evolutionary_based/DE.py:557-566`) -/
def newSize (abs : Bool) (pop : List (Agent d K (Own K))) (n : Nat) : D c Int := do
  let total : K := sumL ((pop.take n).map (·.ext.ps))
  let m : Int := if abs then Num.trunc (total / ♯n) else Num.trunc (♯n + total)
  if m ≤ 4 then do
    let u ← uniform 0 4
    pure (c.popSize + Num.trunc u)
  else if m > 4 * c.popSize then do
    let u ← uniform 0 4
    pure (c.popSize - Num.trunc u)
  else pure m

/-- `SAP_DE.evolve` (`mealpy/evolutionary_based/DE.py:509-573`). `c.popSize` is `fixed_pop_size`; the attribute `pop_size` always equals the
length of the population. -/
def evolve (abs : Bool) (_ep : Nat) : M c (Own K) Unit Unit := do
  let s ← get
  let n := s.pop.length
  let pend ← draw (repM n (breed abs s.pop))
  let pop ← evalNew pend.flatten
  let m ← draw (newSize abs pop n)
  let sorted ← draw (sortedPop pop)
  setPop (if m ≤ n then sliceTo pop m else pop ++ sorted.take (m - n).toNat)

/-- `SAP_DE` (`mealpy/evolutionary_based/DE.py:441-573`) -/
def algo (abs : Bool) : Algo c (Own K) Unit := Algo.full false (mkExt abs) (pure ()) (evolve abs)

/-- what the numbers have to satisfy: `0 ≤ 1`, `0 ≤ 4`, and `int` of a number from 0 to 4 is one from 0 to 4 -/
structure Small (K : Type) [Num K] : Prop where
  one : (0 : K) ≤ 1
  four : (0 : K) ≤ 4
  cut : ∀ u : K, 0 ≤ u → u ≤ 4 → 0 ≤ Num.trunc u ∧ Num.trunc u ≤ 4

/-- at least four agents, at most eight times as many as at first -/
def Size (c : Cfg d K) (n : Nat) : Prop := 4 ≤ n ∧ n ≤ 8 * c.popSize

variable {abs : Bool} {pop : List (Agent d K (Own K))}

theorem dt_mkExt {Er : Err → Prop} {x : Vec d K} : DT Er (mkExt abs x : D c _) (fun _ => True) := by
  unfold mkExt
  exact DT.bind DT.uniform' fun _ _ => DT.bind DT.uniform' fun _ _ => DT.bind (show DT Er _ (fun _ => True) from DT.ite (fun _ => DT.normal) fun _ => DT.uniform') fun _ _ => DT.pure trivial

/-- a position in the box, with its own target if it has one -/
def Fine (c : Cfg d K) (q : Pend d K) : Prop := Feas c q.1.1 ∧ ∀ t, q.2 = some t → t = c.P.target q.1.1

theorem dt_dress {x : Vec d K} (hx : Feas c x) {e : Own K} : DT noErr (dress abs x e : D c _) (Fine c) := by
  unfold dress
  exact DT.bind dt_mkExt fun f _ => DT.pure ⟨hx, fun t h => by cases h⟩

theorem dt_toRange {x : K} : DT noErr (toRange x : D c _) (fun _ => True) := by
  unfold toRange
  exact DT.ite (fun _ => DT.pure trivial) fun _ => DT.dist

theorem dt_cross (hP : c.P.Lawful) {F : K} {own a b e : Agent d K (Own K)} {go : Bool} (h : CF c own) : DT noErr (cross abs F own a b e go : D c _) (Fine c) := by
  unfold cross
  refine DT.ite (fun _ => ?_) fun _ => DT.pure ⟨h.2, fun t ht => ?_⟩
  · exact DT.bind (DT.correct hP) fun pos hp => DT.bind dt_toRange fun _ _ => DT.bind dt_toRange fun _ _ => dt_dress hp
  · injection ht with ht
    rw [← ht]; exact h.1

theorem dt_mutate (hE : c.E.Lawful) (hP : c.P.Lawful) (hK : Small K) {own a : Agent d K (Own K)} : DT noErr (mutate abs own a : D c _) (fun l => l.length ≤ 1 ∧ ∀ q ∈ l, Fine c q) := by
  unfold mutate
  refine DT.bind (DT.uniform hE hK.one) fun u hu => DT.ite (fun h => ?_) fun _ => DT.pure (by simp)
  have h0 : 0 ≤ a.ext.mr := le_of_lt (lt_of_le_of_lt hu.1 h)
  refine DT.bind (DT.normalS h0) fun n _ => DT.bind DT.normal fun _ _ => DT.bind DT.normal fun _ _ => ?_
  refine DT.bind (show DT noErr _ (fun _ => True) from DT.ite (fun _ => DT.bind DT.normal fun _ _ => DT.pure trivial) fun _ => DT.bind (DT.normalS h0) fun _ _ => DT.pure trivial) fun ps _ => ?_
  exact DT.bind (DT.correct hP) fun pos hp => DT.bind (dt_dress hp) fun q hq => DT.pure (by simpa using hq)

theorem dt_breed (hE : c.E.Lawful) (hP : c.P.Lawful) (hK : Small K) (hn : 4 ≤ pop.length) (hp : ∀ a ∈ pop, CF c a) {idx : Nat} (hi : idx < pop.length) :
    DT noErr (breed abs pop idx : D c _) (fun l => (1 ≤ l.length ∧ l.length ≤ 2) ∧ ∀ q ∈ l, Fine c q) := by
  unfold breed
  refine DT.bind (DT.choose3Without hE (by simp; omega)) fun ks hk => DT.bind (DT.index hE (by omega)) fun j _ => DT.bind DT.normal fun F _ => DT.bind DT.uniform' fun u _ => ?_
  refine DT.bind (DT.nth_mem hi) fun own ho => DT.bind (DT.nth_mem hk.1) fun a _ => DT.bind (DT.nth_mem hk.2.1) fun b _ => DT.bind (DT.nth_mem hk.2.2) fun e _ => ?_
  refine DT.bind (dt_cross hP (hp own ho)) fun q hq => DT.bind (dt_mutate hE hP hK) fun l hl => DT.pure ⟨⟨by simp, by have := hl.1; simp; omega⟩, fun r hr => ?_⟩
  rcases List.mem_cons.1 hr with rfl | hr
  · exact hq
  · exact hl.2 r hr

/-- the invariant -/
abbrev I (c : Cfg d K) : Inv c (Own K) Unit := Inv.sized c (Own K) (Size c) JT

theorem wt_evalNew (hE : c.E.Lawful) {pend : List (Pend d K)} (h : ∀ q ∈ pend, Fine c q) :
    WT noErr (I c) 0 pend.length (evalNew pend : M c (Own K) Unit _) (fun l => l.length = pend.length ∧ ∀ a ∈ l, (I c).Ag a) := by
  unfold evalNew
  refine WT.ite (fun _ => ?_) fun _ => ?_
  · have := WT.evalAll (Er := noErr) (I := I c) hE (pend := pend.map (·.1)) fun q hq => by
      obtain ⟨r, hr, rfl⟩ := List.mem_map.1 hq
      exact ⟨(h r hr).1, (h r hr).1⟩
    rw [List.length_map] at this
    exact WT.weaken this (by omega) le_rfl
  · refine WT.weaken (WT.iter (lo := 0) (hi := 1) (fun i (l : List (Agent d K (Own K))) => l.length = i ∧ ∀ a ∈ l, (I c).Ag a) pend.length ⟨rfl, by simp⟩ fun i l hi hl => ?_) (by omega) (by omega)
    have happ : ∀ a : Agent d K (Own K), CF c a → (l ++ [a]).length = i + 1 ∧ ∀ b ∈ l ++ [a], (I c).Ag b := by
      intro a ha
      refine ⟨by simp [hl.1], fun b hb => ?_⟩
      rcases List.mem_append.1 hb with hb | hb
      · exact hl.2 b hb
      · rw [List.mem_singleton.1 hb]; exact ha
    refine WT.bind0 (WT.draw (DT.nth_mem hi)) fun q hq => ?_
    have hq' := h q hq
    obtain ⟨⟨x, e⟩, o⟩ := q
    cases o with
    | some t => exact WT.weaken (WT.pure (happ ⟨x, t, e⟩ ⟨hq'.2 t rfl, hq'.1⟩)) (by omega) (by omega)
    | none => exact WT.bindS (WT.getTarget hq'.1) (by omega) fun t ht => WT.weaken (WT.pure (happ ⟨x, t, e⟩ ⟨ht, hq'.1⟩)) (by omega) (by omega)

theorem dt_newSize (hE : c.E.Lawful) (hK : Small K) (h8 : 8 ≤ c.popSize) {n : Nat} : DT noErr (newSize abs pop n : D c _) (fun m => 4 ≤ m ∧ m ≤ 4 * c.popSize) := by
  unfold newSize
  dsimp only
  generalize (if abs = true then Num.trunc (sumL ((pop.take n).map (·.ext.ps)) / ♯n) else Num.trunc (♯n + sumL ((pop.take n).map (·.ext.ps)))) = m
  refine DT.ite (fun _ => ?_) fun h1 => DT.ite (fun _ => ?_) fun h2 => DT.pure ⟨by omega, by omega⟩
  · refine DT.bind (DT.uniform hE hK.four) fun u hu => ?_
    have := hK.cut u hu.1 hu.2
    exact DT.pure ⟨by omega, by omega⟩
  · refine DT.bind (DT.uniform hE hK.four) fun u hu => ?_
    have := hK.cut u hu.1 hu.2
    exact DT.pure ⟨by omega, by omega⟩

theorem flatten_length {pend : List (List (Pend d K))} (h : ∀ l ∈ pend, 1 ≤ l.length ∧ l.length ≤ 2) :
    pend.length ≤ pend.flatten.length ∧ pend.flatten.length ≤ 2 * pend.length := by
  induction pend with
  | nil => simp
  | cons a l ih =>
    have := ih fun b hb => h b (by simp [hb])
    have := h a (by simp)
    rw [List.flatten_cons, List.length_append, List.length_cons]
    omega

theorem wok (hE : c.E.Lawful) (hP : c.P.Lawful) (hc : Accepted c 8) (abs : Bool) (hK : Small K) :
    (algo abs : Algo c (Own K) Unit).WOk noErr (I c) JT JT c.popSize c.popSize 0 0 0 (16 * c.popSize) := by
  have hpop := hc.pop
  unfold algo
  refine Algo.std_wok (I := I c) hE hP (by omega) (⟨by omega, by omega⟩ : Size c c.popSize) (fun n hn => by have : Size c n := hn; have := this.1; omega) rfl rfl
    (Inv.sized_box (mkExt := mkExt abs) fun x hx => dt_mkExt) (DT.pure trivial) (fun ep _ _ => ?_)
  show WT noErr (I c) 0 (16 * c.popSize) (evolve abs ep) (fun _ => True)
  unfold evolve
  refine WT.bind0 WT.get fun s hs => ?_
  have hsz : Size c s.pop.length := hs.len
  have hn1 := hsz.1
  have hn2 := hsz.2
  refine WT.bind0 (WT.draw (DT.repM fun i hi => dt_breed hE hP hK hn1 (fun a ha => ⟨(hs.pop a ha).1, (hs.pop a ha).2⟩) hi)) fun pend hpend => ?_
  have hfl := flatten_length fun l hl => (hpend.2 l hl).1
  rw [hpend.1] at hfl
  refine WT.bindS (wt_evalNew hE fun q hq => ?_) (by omega) fun pop hpop' => ?_
  · obtain ⟨l, hl, hql⟩ := List.mem_flatten.1 hq
    exact (hpend.2 l hl).2 q hql
  refine WT.bind0 (WT.draw (dt_newSize hE hK (by omega))) fun m hm => WT.bind0 (WT.draw (DT.sortedPop hE)) fun sorted hso => WT.weaken (WT.setPop ?_ ?_) (by omega) (by omega)
  · show Size c _
    have hl := hpop'.1
    have hs1 := hso.1
    split
    · unfold sliceTo
      rw [if_pos (by omega), List.length_take]
      constructor <;> omega
    · rw [List.length_append, List.length_take]
      constructor <;> omega
  · intro a ha
    split at ha
    · exact hpop'.2 a (sliceTo_mem ha)
    · rcases List.mem_append.1 ha with ha | ha
      · exact hpop'.2 a ha
      · exact hpop'.2 a ((hso.2 a).1 (List.mem_of_mem_take ha))

theorem framed_evalNew (hE : c.E.Lawful) {pend : List (Pend d K)} : Framed true (evalNew pend : M c (Own K) Unit _) := by
  unfold evalNew; framed

macro_rules
  | `(tactic| fprim) => `(tactic| (at_last SAP_DE.evalNew; exact SAP_DE.framed_evalNew (by assumption)))

theorem framed (hE : c.E.Lawful) (abs : Bool) (ep : Nat) : Framed true (evolve abs ep : M c (Own K) Unit Unit) := by
  unfold evolve; framed

end SAP_DE

end Mealpy
