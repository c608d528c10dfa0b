import Mathlib.Data.List.Sort
import Verif.Alg.Kit18
import Verif.Alg.Simple13

/-!
# Bird swarms, parties, bacteria and chameleons

`OriginalBSA`, `OriginalPO`, `OriginalBFO`, `OriginalChameleonSA` and `IChameleonSA`.
-/

set_option linter.unusedSectionVars false
set_option linter.unusedVariables false

namespace Mealpy
open Spec

variable {d : Nat} {K : Type} [Num K] {c : Cfg d K}

namespace OriginalBSA

/-- the hyper-parameters (`mealpy/swarm_based/BSA.py:88-94`) -/
structure Params (K : Type) where
  ff : Nat
  pff : K
  c1 : K
  c2 : K
  a1 : K
  a2 : K
  fc : K

/-- `local_solution` and the fitness of `local_target` (`mealpy/swarm_based/BSA.py:98-108`); they are never updated -/
abbrev Own (d : Nat) (K : Type) : Type := Vec d K × K

/-- foraging and vigilance (`mealpy/swarm_based/BSA.py:125-138`) -/
def forage (p : Params K) (mean : Vec d K) (fits : List K) (s : St c (Own d K) Unit) (idx : Nat) : D c (Vec d K × Own d K) := do
  let a ← nth s.pop idx
  let g := s.gbest.sol
  let u1 ← uniform 0 1
  let prob : K := u1 * 0.2 + p.pff
  let u2 ← uniform 0 1
  let pos ← (if u2 < prob then do
      let v1 ← uniform 0 1
      let v2 ← uniform 0 1
      pure (fun j => a.sol j + p.c1 * v1 * (a.ext.1 j - a.sol j) + p.c2 * v2 * (g j - a.sol j))
    else do
      let total : K := sumL fits
      let A1 : K := p.a1 * Num.exp (-♯c.popSize * a.ext.2 / (Num.EPSILON + total))
      let k ← pickWithout c.popSize [idx]
      let fi ← nth fits idx
      let fk ← nth fits k
      let t1 : K := (fi - fk) / (Num.abs (fi - fk) + Num.EPSILON)
      let A2 : K := p.a2 * Num.exp (t1 * ♯c.popSize * fk / (total + Num.EPSILON))
      let v1 ← uniform 0 1
      let v2 ← uniform (-1) 1
      pure (fun j => a.sol j + A1 * v1 * (mean j - a.sol j) + A2 * v2 * (g j - a.sol j)) : D c (Vec d K))
  let pos ← correct pos
  pure (pos, a.ext)

/-- `choose` (`mealpy/swarm_based/BSA.py:149-159`) -/
def choose (n lo hi : Nat) : Nat :=
  if n < 2 * lo ∧ n < 2 * hi then 4
  else if 2 * lo < n ∧ n < 2 * hi then 3
  else if n < 2 * lo ∧ 2 * hi < n then 2
  else if 2 * lo < n ∧ 2 * hi < n then 1
  else 0

/-- a producer's move (`mealpy/swarm_based/BSA.py:163-166`) -/
def produce (s : St c (Own d K) Unit) (i : Nat) : D c (Nat × Vec d K) := do
  let a ← nth s.pop i
  let u ← uniformVec c.P.lb c.P.ub
  let pos ← correct (fun j => a.sol j + u j * a.sol j)
  pure (i, pos)

/-- a scrounger's move towards one of the agents from `lo` to `hi` (`mealpy/swarm_based/BSA.py:174-179`) -/
def scrounge (p : Params K) (s : St c (Own d K) Unit) (lo hi : Nat) (i : Nat) : D c (Nat × Vec d K) := do
  let a ← nth s.pop i
  let u ← uniform 0 1
  let k ← integers lo hi
  let b ← nthI s.pop k
  let pos ← correct (fun j => a.sol j + (b.sol j - a.sol j) * (u * 0.4 + p.fc))
  pure (i, pos)

/-- the new positions, with their slots, in the order they are assigned (`mealpy/swarm_based/BSA.py:161-197`). `SG.integers` truncates its
bounds. In the case `choose == 4` a move of the best agent is computed and dropped. -/
def flock (p : Params K) (s : St c (Own d K) Unit) (ch best : Nat) : D c (List (Nat × Vec d K)) := do
  let half := c.popSize / 2
  if ch < 3 then do
    let far ← repM (c.popSize - (half + 1)) (fun k => produce s (half + 1 + k))
    let own ← (if ch = 1 then do
      let m ← produce s best
      pure [m] else pure [] : D c (List (Nat × Vec d K)))
    let near ← repM half (fun i => if ch = 2 ∨ best ≠ i then do
      let m ← scrounge p s (half + 1) c.popSize i
      pure [m] else pure [])
    pure (far ++ own ++ near.flatten)
  else do
    let near ← repM half (fun i => produce s i)
    let _ ← (if ch = 4 then do
      let m ← produce s best
      pure [m] else pure [] : D c (List (Nat × Vec d K)))
    let far ← repM (c.popSize - (half + 1)) (fun k => if ch = 3 ∨ best ≠ half + 1 + k then do
      let m ← scrounge p s 0 half (half + 1 + k)
      pure [m] else pure [])
    pure (near ++ far.flatten)

/-- `OriginalBSA.evolve` (`mealpy/swarm_based/BSA.py:110-203`); all of `pop_new` is evaluated, also the agents that did not move -/
def evolve (p : Params K) (ep : Nat) : M c (Own d K) Unit Unit := do
  let s ← get
  let fits := s.pop.map (·.ext.2)
  if ep % p.ff ≠ 0 then greedyLoop c.popSize (forage p (meanPos (s.pop.map (·.sol))) fits)
  else do
    let moves ← draw (flock p s (choose c.popSize (argminL fits) (argmaxL fits)) (argminL fits))
    let new ← evalAll (overwrite (s.pop.map (fun a => (a.sol, a.ext))) (moves.map (fun m => (m.1, (m.2, (s.pop.map (·.ext)).getD m.1 (m.2, 0))))))
    selectGreedy new

theorem dt_forage (hE : c.E.Lawful) (hP : c.P.Lawful) (h2 : 2 ≤ c.popSize) {p : Params K} {mean : Vec d K} {fits : List K} {s : St c (Own d K) Unit} {idx : Nat}
    (hl : s.pop.length = c.popSize) (hf : fits.length = c.popSize) (hi : idx < c.popSize) : DT noErr (forage p mean fits s idx : D c _) (MkOk (FA c) c) := by
  unfold forage
  refine DT.bind (DT.nth_mem (by omega)) fun a _ => DT.bind DT.uniform' fun u1 _ => DT.bind DT.uniform' fun u2 _ => ?_
  refine DT.bind (show DT noErr _ (fun _ => True) from DT.ite (fun _ => DT.bind DT.uniform' fun v1 _ => DT.bind DT.uniform' fun v2 _ => DT.pure trivial) fun _ => ?_) fun pos _ =>
    DT.bind (DT.correct hP) fun pos hp => DT.pure (FA.mkOk hp)
  refine DT.bind (DT.pickWithout hE (by simp; omega)) fun k hk => ?_
  have hk1 := hk.1
  exact DT.bind (DT.nth_mem (by omega)) fun fi _ => DT.bind (DT.nth_mem (by omega)) fun fk _ => DT.bind DT.uniform' fun v1 _ =>
    DT.bind DT.uniform' fun v2 _ => DT.pure trivial

theorem dt_produce (hP : c.P.Lawful) {s : St c (Own d K) Unit} {i : Nat} (hi : i < s.pop.length) : DT noErr (produce s i : D c _) (fun m => Feas c m.2) := by
  unfold produce
  exact DT.bind (DT.nth_mem hi) fun a _ => DT.bind DT.uniformVec' fun u _ => DT.bind (DT.correct hP) fun pos hp => DT.pure hp

theorem dt_scrounge (hE : c.E.Lawful) (hP : c.P.Lawful) {p : Params K} {s : St c (Own d K) Unit} {lo hi i : Nat} (hi' : i < s.pop.length) (h1 : lo < hi) (h2 : hi ≤ s.pop.length) :
    DT noErr (scrounge p s lo hi i : D c _) (fun m => Feas c m.2) := by
  unfold scrounge
  refine DT.bind (DT.nth_mem hi') fun a _ => DT.bind DT.uniform' fun u _ => DT.bind (DT.integers hE (by omega)) fun k hk => ?_
  exact DT.bind (DT.nthI (by omega)) fun b _ => DT.bind (DT.correct hP) fun pos hp => DT.pure hp

theorem dt_flock (hE : c.E.Lawful) (hP : c.P.Lawful) (h5 : 5 ≤ c.popSize) {p : Params K} {s : St c (Own d K) Unit} (hl : s.pop.length = c.popSize) {ch best : Nat} (hb : best < c.popSize) :
    DT noErr (flock p s ch best : D c _) (fun l => ∀ m ∈ l, Feas c m.2) := by
  unfold flock
  have hone : ∀ {q : Prop} [Decidable q], DT noErr (if q then do
      let m ← produce s best
      pure [m] else pure [] : D c (List (Nat × Vec d K))) (fun l => ∀ m ∈ l, Feas c m.2) := by
    intro q _
    exact DT.ite (fun _ => DT.bind (dt_produce hP (by omega)) fun m hm => DT.pure (by simpa using hm)) fun _ => DT.pure (by simp)
  have hsc : ∀ {q : Prop} [Decidable q] {lo hi i : Nat}, i < c.popSize → lo < hi → hi ≤ c.popSize → DT noErr (if q then do
      let m ← scrounge p s lo hi i
      pure [m] else pure [] : D c (List (Nat × Vec d K))) (fun l => ∀ m ∈ l, Feas c m.2) := by
    intro q _ lo hi i h1 h2 h3
    exact DT.ite (fun _ => DT.bind (dt_scrounge hE hP (by omega) h2 (by omega)) fun m hm => DT.pure (by simpa using hm)) fun _ => DT.pure (by simp)
  dsimp only
  refine DT.ite (fun _ => ?_) fun _ => ?_
  · refine DT.bind (DT.repM (Q := fun m => Feas c m.2) fun k hk => dt_produce hP (by omega)) fun far hf => DT.bind hone fun own ho => ?_
    refine DT.bind (DT.repM (Q := fun l => ∀ m ∈ l, Feas c m.2) fun k hk => hsc (by omega) (by omega) (by omega)) fun near hn => DT.pure fun m hm => ?_
    rcases List.mem_append.1 hm with g | g
    · rcases List.mem_append.1 g with g | g
      · exact hf.2 m g
      · exact ho m g
    · obtain ⟨l, h1, h2⟩ := List.mem_flatten.1 g
      exact hn.2 l h1 m h2
  · refine DT.bind (DT.repM (Q := fun m => Feas c m.2) fun k hk => dt_produce hP (by omega)) fun near hn => DT.bind hone fun own ho => ?_
    refine DT.bind (DT.repM (Q := fun l => ∀ m ∈ l, Feas c m.2) fun k hk => hsc (by omega) (by omega) (by omega)) fun far hf => DT.pure fun m hm => ?_
    rcases List.mem_append.1 hm with g | g
    · exact hn.2 m g
    · obtain ⟨l, h1, h2⟩ := List.mem_flatten.1 g
      exact hf.2 l h1 m h2

/-- `OriginalBSA` (`mealpy/swarm_based/BSA.py:13-203`) -/
def algo (p : Params K) : Algo c (Own d K) Unit := Algo.full false (fun x => pure (x, (c.P.target x).fitness)) (pure ()) (evolve p)

theorem ok (hE : c.E.Lawful) (hP : c.P.Lawful) (hc : Accepted c 5) (p : Params K) :
    (algo p : Algo c (Own d K) Unit).Ok (FA c) JT JT JT c.popSize c.popSize c.popSize := by
  fullalg hE hP hc evolve
  refine IT.pt (IT.bind0 IT.get fun s hs => HJ.it (HJ.ite (fun _ => HJ.ofIT (IT.greedyLoop hE fun s' i hs' hl hi => dt_forage hE hP (by omega) hl (by simpa using hs.len) hi)) fun _ => ?_))
  have hl : s.pop.length = c.popSize := hs.len
  have hbest : argminL (s.pop.map (·.ext.2)) < c.popSize := by
    have := argminL_lt (l := s.pop.map (fun a => a.ext.2)) (by simp; omega)
    simpa [hl] using this
  refine HJ.bind0 (HJ.draw (dt_flock hE hP (by omega) hl hbest)) fun moves hm => ?_
  have hlen : (overwrite (s.pop.map (fun a => (a.sol, a.ext))) (moves.map (fun m => (m.1, (m.2, (s.pop.map (·.ext)).getD m.1 (m.2, 0)))))).length = c.popSize := by
    rw [overwrite_length, List.length_map, hl]
  refine HJ.bindS (HJ.evalAll hE fun q hq => ?_) (by rw [hlen]) fun new hn => HJ.weaken (HJ.selectGreedy (by rw [List.nil_append, hn.1, hlen])) (by omega) (by omega)
  rcases overwrite_mem hq with g | ⟨r, g, rfl⟩
  · obtain ⟨a, ha, rfl⟩ := List.mem_map.1 g
    exact FA.mkOk (hs.feas a ha)
  · obtain ⟨m, hm', rfl⟩ := List.mem_map.1 g
    exact FA.mkOk (hm m hm')

theorem framed (hE : c.E.Lawful) (p : Params K) (ep : Nat) : Framed true (evolve p ep : M c (Own d K) Unit Unit) := by
  unfold evolve; framed

end OriginalBSA

namespace OriginalPO

/-- the hyper-parameters (`mealpy/human_based/PO.py:69-71`); `pop_size` is the square of `parties` -/
structure Params (K : Type) where
  parties : Nat
  lambdaMax : K

/-- the attributes (`mealpy/human_based/PO.py:78-82`). `pop_prev` is a shallow copy of a population, so its entry for a slot is the object in
that slot (`none`) until the slot is given another one; then it is what that object held at the time. -/
structure Vars (d : Nat) (K : Type) where
  lam : K
  prev : List (Option (Vec d K × Target K))
  leaders : List Nat
  winners : List Nat

/-- the first best index of a list of fitnesses (`mealpy/human_based/PO.py:133-136`) -/
def bestPos (mm : MinMax) (l : List K) : Nat := match mm with
  | .min => argminL l
  | .max => argmaxL l

/-- the first worst one (`mealpy/human_based/PO.py:184-187`) -/
def worstPos (mm : MinMax) (l : List K) : Nat := match mm with
  | .min => argmaxL l
  | .max => argminL l

/-- the members of a party -/
def party (n : Nat) (fits : List K) (i : Nat) : List K := (fits.drop (i * n)).take n

/-- the leaders of the parties and the winners of the constituencies (`get_leaders_and_winners`, `mealpy/human_based/PO.py:122-144`) -/
def leaders (mm : MinMax) (n : Nat) (fits : List K) : List Nat :=
  (List.range n).map (fun i => i * n + bestPos mm (party n fits i))
def winners (mm : MinMax) (n : Nat) (fits : List K) : List Nat :=
  (List.range n).map (fun j => j + n * bestPos mm ((List.range n).filterMap (fun k => fits[j + n * k]?)))

/-- `before_main_loop` (`mealpy/human_based/PO.py:78-82`) -/
def before (p : Params K) (s : St c Unit (Vars d K)) : D c (Vars d K) :=
  pure ⟨p.lambdaMax, List.replicate c.popSize none, leaders c.P.mm p.parties (s.pop.map (·.fit)), winners c.P.mm p.parties (s.pop.map (·.fit))⟩

/-- `rppus_update` (`mealpy/human_based/PO.py:84-120`) -/
def rppus (cur prev m : Vec d K) (improved : Bool) : D c (Vec d K) := do
  let r ← randomVec
  pure (fun j =>
    let x := cur j
    let o := prev j
    let t := m j
    if (t ≤ o ∧ o ≤ x) ∨ (o ≤ t ∧ x ≤ o) then t + (2 * r j - 1) * Num.abs (t - o)
    else if (o ≤ t ∧ t ≤ x) ∨ (t ≤ o ∧ x ≤ t) then (if improved then t + (2 * r j - 1) * Num.abs (t - x) else o + r j * (x - o))
    else if (o ≤ x ∧ x ≤ t) ∨ (x ≤ o ∧ t ≤ x) then (if improved then t + r j * (t - x) else t + (2 * r j - 1) * Num.abs (t - x))
    else t + r j * (t - x))

/-- the election campaign (`mealpy/human_based/PO.py:157-174`); each member sees the moves of the ones before -/
def campaign (p : Params K) (s : St c Unit (Vars d K)) : D c (List (Vec d K)) :=
  iter c.popSize (fun k xs => do
    let a ← nth s.pop k
    let x ← nth xs k
    let o ← nth s.ext.prev k
    let old : Vec d K × Target K := o.getD (x, a.tgt)
    let improved := compareTarget a.tgt old.2 c.P.mm
    let ld ← nth s.ext.leaders (k / p.parties)
    let m1 ← nth xs ld
    let u ← rppus x old.1 m1 improved
    let w ← nth s.ext.winners (k % p.parties)
    let m2 ← nth xs w
    let v ← rppus u old.1 m2 improved
    let v ← amendClip v
    pure (xs.set k v)) (s.pop.map (·.sol))

/-- the party switching (`mealpy/human_based/PO.py:177-194`): the positions, the copied fitnesses and what is left of the old objects -/
def switch (p : Params K) (s : St c Unit (Vars d K)) (xs : List (Vec d K)) : D c (List (Vec d K) × List (Option (Vec d K × Target K))) := do
  let r ← iter c.popSize (fun k (q : List (Vec d K) × List K × List (Option (Vec d K × Target K))) => do
    let u ← random
    if u < s.ext.lam then do
      let r ← index p.parties
      let w := r * p.parties + worstPos c.P.mm (party p.parties q.2.1 r)
      let xk ← nth q.1 k
      let xw ← nth q.1 w
      let fk ← nth q.2.1 k
      let fw ← nth q.2.1 w
      let ak ← nth s.pop k
      let aw ← nth s.pop w
      let ok ← nth q.2.2 k
      let ow ← nth q.2.2 w
      pure ((q.1.set w xk).set k xw, (q.2.1.set k fw).set w fk, (q.2.2.set k (some (ok.getD (xk, ak.tgt)))).set w (some (ow.getD (xw, aw.tgt))))
    else pure q) (xs, s.pop.map (·.fit), List.replicate c.popSize none)
  pure (r.1, r.2.2)

/-- a parliamentary affair (`mealpy/human_based/PO.py:206-217`) -/
def affair (p : Params K) (j : Nat) : M c Unit (Vars d K) Unit := do
  let s ← get
  let cj ← draw (nth s.ext.winners j)
  let r ← draw (sample1 p.parties j)
  let cr ← draw (nth s.ext.winners r)
  let a ← draw random
  let xr ← popAt cr
  let xj ← popAt cj
  let pos ← draw (correct (fun i => xr.sol i + (2 * a - 1) * Num.abs (xr.sol i - xj.sol i)))
  let won ← tryComp (fun _ => pure ()) cj pos
  if won then modExt (fun y => { y with prev := y.prev.set cj (some (((y.prev)[cj]?.join).getD (xj.sol, xj.tgt))) }) else pure ()

/-- `OriginalPO.evolve` (`mealpy/human_based/PO.py:146-221`) -/
def evolve (p : Params K) (_ep : Nat) : M c Unit (Vars d K) Unit := do
  let s ← get
  let xs ← draw (campaign p s)
  let q ← draw (switch p s xs)
  let new ← evalAll (q.1.map (fun x => (x, ())))
  setPop new
  modExt (fun y => { y with prev := q.2, leaders := leaders c.P.mm p.parties (new.map (·.fit)), winners := winners c.P.mm p.parties (new.map (·.fit)) })
  iter p.parties (fun j _ => affair p j) ()
  modExt (fun y => { y with lam := y.lam - p.lambdaMax / ♯c.epoch })

/-- the leaders and the winners are members -/
structure Ok (c : Cfg d K) (p : Params K) (y : Vars d K) : Prop where
  prev : y.prev.length = c.popSize
  leaders : y.leaders.length = p.parties ∧ ∀ i ∈ y.leaders, i < c.popSize
  winners : y.winners.length = p.parties ∧ ∀ i ∈ y.winners, i < c.popSize

theorem bestPos_lt {mm : MinMax} {l : List K} (h : 0 < l.length) : bestPos mm l < l.length := by
  cases mm
  · exact argminL_lt h
  · exact argmaxL_lt h

theorem worstPos_lt {mm : MinMax} {l : List K} (h : 0 < l.length) : worstPos mm l < l.length := by
  cases mm
  · exact argmaxL_lt h
  · exact argminL_lt h

theorem party_length {n : Nat} {fits : List K} {i : Nat} (hf : fits.length = n * n) (hi : i < n) : (party n fits i).length = n := by
  have h : i * n + n ≤ n * n := by
    have := Nat.mul_le_mul_right n (show i + 1 ≤ n by omega)
    rwa [Nat.add_mul, Nat.one_mul] at this
  unfold party
  rw [List.length_take, List.length_drop, hf]
  omega

theorem square_lt {n i k : Nat} (hi : i < n) (hk : k < n) : i * n + k < n * n := by
  have := Nat.mul_le_mul_right n (show i + 1 ≤ n by omega)
  rw [Nat.add_mul, Nat.one_mul] at this
  omega

theorem ok_leaders {mm : MinMax} {n : Nat} {fits : List K} (hn : 0 < n) (hf : fits.length = n * n) :
    (leaders mm n fits).length = n ∧ ∀ i ∈ leaders mm n fits, i < n * n := by
  refine ⟨by simp [leaders], fun i hi => ?_⟩
  obtain ⟨k, hk, rfl⟩ := List.mem_map.1 hi
  have hk' := List.mem_range.1 hk
  have h1 := party_length hf hk'
  have h2 := bestPos_lt (mm := mm) (l := party n fits k) (by omega)
  exact square_lt hk' (by omega)

theorem ok_winners {mm : MinMax} {n : Nat} {fits : List K} (hn : 0 < n) (hf : fits.length = n * n) :
    (winners mm n fits).length = n ∧ ∀ i ∈ winners mm n fits, i < n * n := by
  refine ⟨by simp [winners], fun i hi => ?_⟩
  obtain ⟨j, hj, rfl⟩ := List.mem_map.1 hi
  have hj' := List.mem_range.1 hj
  have h1 : ((List.range n).filterMap (fun k => fits[j + n * k]?)).length ≤ n := by
    simpa using List.length_filterMap_le (fun k => fits[j + n * k]?) (List.range n)
  have h0 : 0 < ((List.range n).filterMap (fun k => fits[j + n * k]?)).length := by
    refine List.length_pos_iff.2 fun he => ?_
    have h4 : j < fits.length := by have := square_lt (i := 0) hn hj'; omega
    have h3 : fits[j]? = some fits[j] := List.getElem?_eq_getElem h4
    have : fits[j] ∈ (List.range n).filterMap (fun k => fits[j + n * k]?) :=
      List.mem_filterMap.2 ⟨0, List.mem_range.2 hn, by simpa using h3⟩
    rw [he] at this
    simp at this
  have h2 := bestPos_lt (mm := mm) h0
  have := square_lt (i := bestPos mm ((List.range n).filterMap (fun k => fits[j + n * k]?))) (n := n) (by omega) hj'
  rw [Nat.mul_comm] at this
  show j + n * _ < n * n
  omega

theorem dt_rppus {cur prev m : Vec d K} {b : Bool} : DT noErr (rppus cur prev m b : D c _) (fun _ => True) := by
  unfold rppus
  exact DT.bind DT.randomVec fun r _ => DT.pure trivial

theorem dt_clip {x : Vec d K} {a : Vec d K} (h : Feas c a) : DT noErr (amendClip x : D c _) (Feas c) :=
  DT.pure fun j => ⟨le_min (le_max_right _ _) ((h j).1.trans (h j).2), min_le_right _ _⟩

theorem dt_campaign {p : Params K} (hn : c.popSize = p.parties * p.parties) (h2 : 2 ≤ p.parties) {s : St c Unit (Vars d K)} (hl : s.pop.length = c.popSize)
    (hf : ∀ a ∈ s.pop, Feas c a.sol) (hy : Ok c p s.ext) : DT noErr (campaign p s : D c _) (fun l => l.length = c.popSize ∧ ∀ x ∈ l, Feas c x) := by
  unfold campaign
  refine DT.iter (fun _ (l : List (Vec d K)) => l.length = c.popSize ∧ ∀ x ∈ l, Feas c x) _ ⟨by simpa using hl, fun x hx => ?_⟩ ?_
  · obtain ⟨a, ha, rfl⟩ := List.mem_map.1 hx
    exact hf a ha
  · rintro k xs hk ⟨h3, h4⟩
    have hd : k / p.parties < p.parties := Nat.div_lt_of_lt_mul (by omega)
    have hm : k % p.parties < p.parties := Nat.mod_lt _ (by omega)
    refine DT.bind (DT.nth_mem (by omega)) fun a ha => DT.bind (DT.nth_mem (by omega)) fun x _ => DT.bind (DT.nth_mem (by rw [hy.prev]; exact hk)) fun o _ => ?_
    refine DT.bind (DT.nth_mem (by rw [hy.leaders.1]; exact hd)) fun ld hld => DT.bind (DT.nth_mem (by rw [h3]; exact hy.leaders.2 ld hld)) fun m1 _ => ?_
    refine DT.bind dt_rppus fun u _ => DT.bind (DT.nth_mem (by rw [hy.winners.1]; exact hm)) fun w hw => DT.bind (DT.nth_mem (by rw [h3]; exact hy.winners.2 w hw)) fun m2 _ => ?_
    refine DT.bind dt_rppus fun v _ => DT.bind (dt_clip (hf a ha)) fun v hv => DT.pure ⟨by simpa using h3, fun y hy => ?_⟩
    rcases List.mem_or_eq_of_mem_set hy with g | rfl
    · exact h4 y g
    · exact hv

theorem dt_switch (hE : c.E.Lawful) {p : Params K} (hn : c.popSize = p.parties * p.parties) (h2 : 2 ≤ p.parties) {s : St c Unit (Vars d K)} (hl : s.pop.length = c.popSize)
    {xs : List (Vec d K)} (hx : xs.length = c.popSize ∧ ∀ x ∈ xs, Feas c x) :
    DT noErr (switch p s xs : D c _) (fun q => (q.1.length = c.popSize ∧ ∀ x ∈ q.1, Feas c x) ∧ q.2.length = c.popSize) := by
  unfold switch
  refine DT.bind (DT.iter (fun _ (q : List (Vec d K) × List K × List (Option (Vec d K × Target K))) => (q.1.length = c.popSize ∧ ∀ x ∈ q.1, Feas c x) ∧
    q.2.1.length = c.popSize ∧ q.2.2.length = c.popSize) _ ⟨hx, by simpa using hl, by simp⟩ ?_) fun q hq => DT.pure ⟨hq.1, hq.2.2⟩
  rintro k q hk ⟨⟨h3, h4⟩, h5, h6⟩
  refine DT.bind DT.random' fun u _ => DT.ite (fun _ => DT.bind (DT.index hE (by omega)) fun r hr => ?_) fun _ => DT.pure ⟨⟨h3, h4⟩, h5, h6⟩
  have hp := party_length (by omega : q.2.1.length = p.parties * p.parties) hr
  have hw := worstPos_lt (mm := c.P.mm) (l := party p.parties q.2.1 r) (by omega)
  have hw' := square_lt hr (by omega : worstPos c.P.mm (party p.parties q.2.1 r) < p.parties)
  dsimp only
  refine DT.bind (DT.nth_mem (by omega)) fun xk hxk => DT.bind (DT.nth_mem (by omega)) fun xw hxw => DT.bind (DT.nth_mem (by omega)) fun fk _ =>
    DT.bind (DT.nth_mem (by omega)) fun fw _ => DT.bind (DT.nth_mem (by omega)) fun ak _ => DT.bind (DT.nth_mem (by omega)) fun aw _ =>
    DT.bind (DT.nth_mem (by omega)) fun ok _ => DT.bind (DT.nth_mem (by omega)) fun ow _ => DT.pure ⟨⟨by simpa using h3, fun y hy => ?_⟩, by simpa using h5, by simpa using h6⟩
  rcases List.mem_or_eq_of_mem_set hy with g | rfl
  · rcases List.mem_or_eq_of_mem_set g with g | rfl
    · exact h4 y g
    · exact h4 _ hxk
  · exact h4 _ hxw

theorem it_affair (hE : c.E.Lawful) (hP : c.P.Lawful) {p : Params K} (h2 : 2 ≤ p.parties) {j : Nat} (hj : j < p.parties) :
    IT (FA c) (Ok c p) 1 1 (affair p j : M c Unit (Vars d K) Unit) (fun _ => True) := by
  unfold affair
  refine IT.bind0 IT.get fun s hs => ?_
  have hy : Ok c p s.ext := hs.ext
  refine IT.bind0 (IT.draw (DT.nth_mem (by rw [hy.winners.1]; exact hj))) fun cj hcj => IT.bind0 (IT.draw (DT.sample1 hE h2 hj)) fun r hr => ?_
  refine IT.bind0 (IT.draw (DT.nth_mem (by rw [hy.winners.1]; exact hr.1))) fun cr hcr => IT.bind0 (IT.draw DT.random') fun a _ => ?_
  refine IT.bind0 (IT.popAt (hy.winners.2 cr hcr)) fun xr _ => IT.bind0 (IT.popAt (hy.winners.2 cj hcj)) fun xj _ => ?_
  refine IT.bind0 (IT.draw (DT.correct hP)) fun pos hp => IT.bindS (IT.tryComp (hy.winners.2 cj hcj) hp (DT.pure hp)) (by omega) fun won _ => ?_
  refine IT.weaken (HJ.it (HJ.ite (fun _ => HJ.ofIT (IT.modExt fun y h => ?_)) fun _ => HJ.ofIT (IT.pure trivial))) (by omega) (by omega)
  exact ⟨by simpa using h.prev, h.leaders, h.winners⟩

theorem framed_affair (hE : c.E.Lawful) {q : Bool} {p : Params K} {j : Nat} : Framed q (affair p j : M c Unit (Vars d K) _) := by
  unfold affair
  framed

macro_rules
  | `(tactic| fprim) => `(tactic| (at_last OriginalPO.affair; exact OriginalPO.framed_affair (by assumption)))

theorem dt_before {p : Params K} (hn : c.popSize = p.parties * p.parties) (h2 : 2 ≤ p.parties) {s : St c Unit (Vars d K)} (hl : s.pop.length = c.popSize) :
    DT noErr (before p s : D c _) (Ok c p) := by
  have hfl : (s.pop.map (·.fit)).length = p.parties * p.parties := by simp; omega
  have h3 := ok_leaders (mm := c.P.mm) (by omega) hfl
  have h4 := ok_winners (mm := c.P.mm) (by omega) hfl
  rw [← hn] at h3 h4
  exact DT.pure ⟨by simp, h3, h4⟩

/-- `OriginalPO` (`mealpy/human_based/PO.py:12-221`) -/
def algo (p : Params K) : Algo c Unit (Vars d K) := Algo.pre false (fun _ => pure ()) (pure ⟨0, [], [], []⟩) (before p) (evolve p)

theorem ok (hE : c.E.Lawful) (hP : c.P.Lawful) (hc : Accepted c 4) (p : Params K) (hn : c.popSize = p.parties * p.parties) (h2 : 2 ≤ p.parties) :
    (algo p : Algo c Unit (Vars d K)).Ok (FA c) JT JT (Ok c p) c.popSize (c.popSize + p.parties) (c.popSize + p.parties) := by
  have hpop := hc.pop
  unfold algo
  refine Algo.pre_ok (J := (Ok c p)) hE hP (fun x hx => by dgo) (by dgo) (by intro s hs; exact dt_before hn h2 hs) (fun ep hep1 hep2 => ?_)
  unfold evolve
  refine RT.pt (RT.bind0 RJ.get fun s hs => ?_)
  have hl : s.pop.length = c.popSize := hs.len
  refine RT.bind0 (RJ.draw (dt_campaign hn h2 hl hs.feas hs.ext)) fun xs hxs => RT.bind0 (RJ.draw (dt_switch hE hn h2 hl hxs)) fun q hq => ?_
  have hlen : (q.1.map (fun x => (x, ()))).length = c.popSize := by simpa using hq.1.1
  refine RT.bindS (RJ.evalAll hE fun r hr => ?_) (by omega) fun new hnew => ?_
  · obtain ⟨x, hx, rfl⟩ := List.mem_map.1 hr
    exact FA.mkOk (hq.1.2 x hx)
  have hnl : new.length = c.popSize := by omega
  refine RT.thenIT (l1 := 0) (h1 := 0) (RT.setPop hnl (fun a ha => by simpa using ha) fun a ha => ⟨a, by simpa using ha, NoWorse.rfl⟩) (by omega) fun _ _ => ?_
  have hfl : (new.map (·.fit)).length = p.parties * p.parties := by simp; omega
  refine IT.bind0 (IT.modExt fun y _ => ⟨hq.2, ?_, ?_⟩) fun _ _ => ?_
  · have := ok_leaders (mm := c.P.mm) (by omega) hfl
    rwa [← hn] at this
  · have := ok_winners (mm := c.P.mm) (by omega) hfl
    rwa [← hn] at this
  refine IT.iterB 1 1 (by omega) (fun j hj => it_affair hE hP h2 hj) ?_
  exact IT.weaken (IT.modExt fun y h => ⟨h.prev, h.leaders, h.winners⟩) (by omega) (by omega)

theorem framed (hE : c.E.Lawful) (p : Params K) (ep : Nat) : Framed true (evolve p ep : M c Unit (Vars d K) Unit) := by
  unfold evolve; framed

end OriginalPO

namespace OriginalBFO

/-- the hyper-parameters (`mealpy/swarm_based/BFO.py:98-105`). `step` is `Ci` after `check_int`, which truncates: the default 0.01 becomes 0. -/
structure Params (K : Type) where
  step : Nat
  ped : K
  nc : Nat
  ns : Nat
  dAttract : K
  wAttract : K
  hRepels : K
  wRepels : K

/-- the `nutrients` of the cells (`mealpy/swarm_based/BFO.py:111-117`). They are attributes of objects, and after the halving two slots hold one
object (`BFO.py:167`): `ids` are the identities of the objects in the slots, `next` is an unused identity. `cost` and `interaction` are
only read just after they have been written. -/
structure Cells (K : Type) where
  ids : List Nat
  next : Nat
  nutrients : Nat → K

/-- `compute_cell_interaction__` (`mealpy/swarm_based/BFO.py:119-124`) -/
def interaction (x : Vec d K) (cells : List (Agent d K Unit)) (dd w : K) : K :=
  sumL (cells.map (fun o => dd * Num.exp (w * (♯d * meanL (List.ofFn (fun j => (x j - o.sol j) * (x j - o.sol j)))))))

/-- the `cost` of a cell (`mealpy/swarm_based/BFO.py:126-134`) -/
def cost (p : Params K) (a : Agent d K Unit) (cells : List (Agent d K Unit)) : K :=
  a.fit + (interaction a.sol cells (-p.dAttract) (-p.wAttract) + interaction a.sol cells p.hRepels (-p.wRepels))

/-- a new object in the slot (`mealpy/swarm_based/BFO.py:162, 170`) -/
def Cells.renew (y : Cells K) (idx : Nat) : Cells K :=
  { ids := y.ids.set idx y.next, next := y.next + 1, nutrients := fun k => if k = y.next then 0 else y.nutrients k }

/-- one stroke of the swim (`mealpy/swarm_based/BFO.py:155-164`); `true` after the `break` -/
def stroke (p : Params K) (idx : Nat) (cst : K) (q : Bool × K) : M c Unit (Cells K) (Bool × K) :=
  if q.1 then pure q
  else do
    let r ← draw (uniformVec c.P.lb c.P.ub)
    let a ← popAt idx
    let pos ← draw (correct (fun j => a.sol j + ♯p.step * (r j / Num.sqrt (Num.abs (dotV r r)))))
    let won ← tryComp (fun _ => pure ()) idx pos
    if won then do
      modExt (fun y => y.renew idx)
      pure (true, q.2)
    else pure (false, q.2 + cst)

/-- a cell's tumbling and swimming (`mealpy/swarm_based/BFO.py:150-165`) -/
def swim (p : Params K) (idx : Nat) : M c Unit (Cells K) Unit := do
  let s ← get
  let a ← popAt idx
  let cst := cost p a s.pop
  let q ← iter p.ns (fun _ q => stroke p idx cst q) (false, cst)
  modExt (fun y => { y with nutrients := fun k => if k = y.ids.getD idx 0 then q.2 else y.nutrients k })

/-- the order of the cells by nutrients, smallest first (`mealpy/swarm_based/BFO.py:166`); `sorted` is stable -/
def order (y : Cells K) : List Nat :=
  (List.range c.popSize).insertionSort (fun i k => y.nutrients (y.ids.getD i 0) ≤ y.nutrients (y.ids.getD k 0))

/-- the better half, twice (`mealpy/swarm_based/BFO.py:167`) -/
def halves {α : Type} (o : List Nat) (l : List α) : List α :=
  let h := (o.take (c.popSize / 2)).filterMap (fun i => l[i]?)
  h ++ h

/-- elimination and dispersal (`mealpy/swarm_based/BFO.py:168-170`) -/
def disperse (p : Params K) (idc : Nat) : M c Unit (Cells K) Unit := do
  let u ← draw random
  if u < p.ped then do
    let a ← liftB (generateAgent (fun _ => pure ()))
    setAt idc a
    modExt (fun y => y.renew idc)
  else pure ()

/-- a chemotactic step (`mealpy/swarm_based/BFO.py:150-170`) -/
def chem (p : Params K) : M c Unit (Cells K) Unit := do
  iter c.popSize (fun idx _ => swim p idx) ()
  let s ← get
  let o := order (c := c) s.ext
  reshape (halves (c := c) o)
  modExt (fun y => { y with ids := halves (c := c) o y.ids })
  iter c.popSize (fun idc _ => disperse p idc) ()

/-- `OriginalBFO.evolve` (`mealpy/swarm_based/BFO.py:142-170`) -/
def evolve (p : Params K) (_ep : Nat) : M c Unit (Cells K) Unit := iter p.nc (fun _ _ => chem p) ()

theorem halves_length {α : Type} {o : List Nat} {l : List α} (h2 : c.popSize % 2 = 0) (ho : o.Perm (List.range c.popSize)) (hl : l.length = c.popSize) :
    (halves (c := c) o l).length = c.popSize := by
  have hlen : o.length = c.popSize := by simpa using ho.length_eq
  have hf : ((o.take (c.popSize / 2)).filterMap (fun i => l[i]?)).length = c.popSize / 2 := by
    have h : ∀ q : List Nat, (∀ i ∈ q, i < l.length) → (q.filterMap (fun i => l[i]?)).length = q.length := by
      intro q
      induction q with
      | nil => intro _; rfl
      | cons i q ih =>
        intro h
        rw [List.filterMap_cons, List.getElem?_eq_getElem (h i (by simp))]
        simp only [List.length_cons]
        rw [ih fun k hk => h k (by simp [hk])]
    rw [h _ fun i hi => by have := List.mem_range.1 (ho.mem_iff.1 (List.mem_of_mem_take hi)); omega, List.length_take, hlen]
    omega
  unfold halves
  simp only [List.length_append, hf]
  omega

theorem halves_mem {α : Type} {o : List Nat} {l : List α} {a : α} (h : a ∈ halves (c := c) o l) : a ∈ l := by
  unfold halves at h
  simp only [List.mem_append, or_self] at h
  obtain ⟨i, _, hi⟩ := List.mem_filterMap.1 h
  exact List.mem_of_getElem? hi

theorem wt_stroke (hP : c.P.Lawful) {p : Params K} {idx : Nat} (hi : idx < c.popSize) {cst : K} {q : Bool × K} :
    WT noErr (Inv.std c Unit JT) (if q.1 then 0 else 1) 1 (stroke p idx cst q : M c Unit (Cells K) _) (fun _ => True) := by
  unfold stroke
  cases hq : q.1
  · simp only [Bool.false_eq_true, if_false]
    refine WT.bind0 (WT.draw DT.uniformVec') fun r _ => WT.bind0 (WT.popAt (by wsz)) fun a _ => WT.bind0 (WT.draw (DT.correct hP)) fun pos hp => ?_
    refine WT.bindS (WT.tryComp (by wsz) hp (DT.pure hp)) (by omega) fun won _ => WT.ite (fun _ => ?_) fun _ => WT.weaken (WT.pure trivial) (by omega) (by omega)
    exact WT.bind0 (WT.modExt fun y hy => hy) fun _ _ => WT.weaken (WT.pure trivial) (by omega) (by omega)
  · simp only [if_true]
    exact WT.weaken (WT.pure trivial) (by omega) (by omega)

theorem wt_swim (hP : c.P.Lawful) {p : Params K} (hns : 1 ≤ p.ns) {idx : Nat} (hi : idx < c.popSize) :
    WT noErr (Inv.std c Unit JT) 1 p.ns (swim p idx : M c Unit (Cells K) _) (fun _ => True) := by
  unfold swim
  obtain ⟨n, hn⟩ : ∃ n, p.ns = n + 1 := ⟨p.ns - 1, by omega⟩
  rw [hn]
  refine WT.bind0 WT.get fun s _ => WT.bind0 (WT.popAt (by wsz)) fun a _ => WT.bindS (l1 := 1) (h1 := n + 1) (R := fun _ => True) (WT.weaken (WT.iterHead (l1 := 1) (h1 := 1) (lo := 0) (hi := 1)
    (fun _ _ => True) trivial (wt_stroke hP hi) n fun i q _ _ _ => WT.weaken (wt_stroke hP hi) (by omega) (by omega)) (by omega) (by omega)) (by omega) fun q _ => ?_
  exact WT.weaken (WT.modExt fun y hy => hy) (by omega) (by omega)

theorem wt_disperse (hE : c.E.Lawful) (hP : c.P.Lawful) {p : Params K} {idx : Nat} (hi : idx < c.popSize) :
    WT noErr (Inv.std c Unit JT) 0 1 (disperse p idx : M c Unit (Cells K) _) (fun _ => True) := by
  unfold disperse
  refine WT.bind0 (WT.draw DT.random') fun u _ => WT.ite (fun _ => ?_) fun _ => WT.weaken (WT.pure trivial) (by omega) (by omega)
  refine WT.generateAgent_std hP (fun x _ => DT.pure trivial) (by omega) fun a ha => WT.bind0 (WT.setAt (by wsz) (Inv.std_ag ha)) fun _ _ => ?_
  exact WT.weaken (WT.modExt fun y hy => hy) (by omega) (by omega)

theorem wt_chem (hE : c.E.Lawful) (hP : c.P.Lawful) {p : Params K} (hns : 1 ≤ p.ns) (h2 : c.popSize % 2 = 0) :
    WT noErr (Inv.std c Unit JT) c.popSize (c.popSize * p.ns + c.popSize) (chem p : M c Unit (Cells K) _) (fun _ => True) := by
  unfold chem
  refine WT.bindS (l1 := c.popSize) (h1 := c.popSize * p.ns) (R := fun _ => True) (WT.iterU 1 p.ns (by omega) le_rfl fun i hi => wt_swim hP hns hi) (by omega) fun _ _ => ?_
  refine WT.bind0 WT.get fun s hs => ?_
  dsimp only
  have ho : (order (c := c) s.ext).Perm (List.range c.popSize) := List.perm_insertionSort _ _
  refine WT.bind0 (WT.reshape fun pop hl hp => ⟨halves_length h2 ho hl, fun a ha => hp a (halves_mem ha)⟩) fun _ _ => ?_
  refine WT.bind0 (WT.modExt fun y hy => hy) fun _ _ => WT.iterU 0 1 (by omega) (by omega) fun i hi => wt_disperse hE hP hi

theorem framed_stroke (hE : c.E.Lawful) {q : Bool} {p : Params K} {idx : Nat} {cst : K} {r : Bool × K} : Framed q (stroke p idx cst r : M c Unit (Cells K) _) := by
  unfold stroke; framed

macro_rules
  | `(tactic| fprim) => `(tactic| (at_last OriginalBFO.stroke; exact OriginalBFO.framed_stroke (by assumption)))

theorem framed_swim (hE : c.E.Lawful) {q : Bool} {p : Params K} {idx : Nat} : Framed q (swim p idx : M c Unit (Cells K) _) := by
  unfold swim; framed

macro_rules
  | `(tactic| fprim) => `(tactic| (at_last OriginalBFO.swim; exact OriginalBFO.framed_swim (by assumption)))

theorem framed_disperse (hE : c.E.Lawful) {q : Bool} {p : Params K} {idx : Nat} : Framed q (disperse p idx : M c Unit (Cells K) _) := by
  unfold disperse; framed

macro_rules
  | `(tactic| fprim) => `(tactic| (at_last OriginalBFO.disperse; exact OriginalBFO.framed_disperse (by assumption)))

theorem framed_chem (hE : c.E.Lawful) {q : Bool} {p : Params K} : Framed q (chem p : M c Unit (Cells K) _) := by
  unfold chem; framed

macro_rules
  | `(tactic| fprim) => `(tactic| (at_last OriginalBFO.chem; exact OriginalBFO.framed_chem (by assumption)))

/-- `OriginalBFO` (`mealpy/swarm_based/BFO.py:13-170`) -/
def algo (p : Params K) : Algo c Unit (Cells K) := Algo.full false (fun _ => pure ()) (pure ⟨List.range c.popSize, c.popSize, fun _ => 0⟩) (evolve p)

theorem wok (hE : c.E.Lawful) (hP : c.P.Lawful) (hc : Accepted c 5) (p : Params K) (h2 : c.popSize % 2 = 0) (hns : 2 ≤ p.ns) :
    (algo p : Algo c Unit (Cells K)).WOk noErr (Inv.std c Unit JT) JT JT c.popSize c.popSize 0 0 (p.nc * c.popSize) (p.nc * (c.popSize * p.ns + c.popSize)) := by
  have hpop := hc.pop
  unfold algo
  refine Algo.full_wok hE hP (by omega) (fun x hx => by dgo) (J := JT) (by exact DT.pure trivial) (fun ep hep1 hep2 => ?_)
  unfold evolve
  exact WT.iterU _ _ le_rfl le_rfl fun i hi => wt_chem hE hP (by omega) h2

theorem framed (hE : c.E.Lawful) (p : Params K) (ep : Nat) : Framed true (evolve p ep : M c Unit (Cells K) Unit) := by
  unfold evolve; framed

end OriginalBFO

namespace OriginalChameleonSA

/-- the hyper-parameters (`mealpy/swarm_based/ChameleonSA.py:93-100`) -/
structure Params (K : Type) where
  pp : K
  p1 : K
  p2 : K
  c1 : K
  c2 : K
  gama : K
  alpha : K
  rho : K

/-- an entry of `pop_personal`: a member of the population itself, by identity (`ChameleonSA.py:109`), or a copy of one (`ChameleonSA.py:166`) -/
inductive Own (d : Nat) (K : Type) where
  | live (id : Nat)
  | kept (x : Vec d K) (t : Target K)

/-- `pop_personal`, `velocities` and `prev_velocities` -/
structure Vars (d : Nat) (K : Type) where
  own : List (Own d K)
  vel : List (Vec d K)
  prev : List (Vec d K)

/-- `before_main_loop` (`mealpy/swarm_based/ChameleonSA.py:108-111`) -/
def before (s : St c Nat (Vars d K)) : D c (Vars d K) :=
  pure ⟨s.pop.map (fun a => .live a.ext), List.replicate c.popSize (fun _ => 0), List.replicate c.popSize (fun _ => 0)⟩

/-- the solution of a personal entry, when the agents `ids` have the solutions `xs` -/
def Own.sol (ids : List Nat) (xs : List (Vec d K)) : Own d K → Vec d K
  | .live id => xs.getD (ids.idxOf id) (fun _ => 0)
  | .kept x _ => x

/-- the target of a personal entry -/
def Own.tgt (pop : List (Agent d K Nat)) (dflt : Target K) : Own d K → Target K
  | .live id => (pop.map (·.tgt)).getD ((pop.map (·.ext)).idxOf id) dflt
  | .kept _ t => t

/-- the search for prey (`mealpy/swarm_based/ChameleonSA.py:122-132`); the solutions are assigned without evaluation -/
def search (p : Params K) (s : St c Nat (Vars d K)) (mu : K) : D c (List (Vec d K)) :=
  iter c.popSize (fun idx xs => do
    let rr ← random
    let r1 ← random
    let r2 ← random
    let r3 ← random
    let x ← nth xs idx
    let o ← nth s.ext.own idx
    let g := s.gbest.sol
    let own := o.sol (s.pop.map (·.ext)) xs
    let pos ← (if p.pp ≤ rr then pure (fun j => x j + p.p1 * (own j - g j) * r1 + p.p2 * (g j - x j) * r2)
      else do
        let r ← randomVec
        pure (fun j => x j + mu * (((c.P.ub j - c.P.lb j) * r3 + c.P.lb j) * Num.sign (r j - 0.5))) : D c (Vec d K))
    pure (xs.set idx pos)) (s.pop.map (·.sol))

/-- the rotation of the eyes (`mealpy/swarm_based/ChameleonSA.py:134-141`) -/
def rotate (xs : List (Vec d K)) : D c (List (Vec d K)) := do
  let ctr := meanPos xs
  repM xs.length (fun idx => do
    let x ← nth xs idx
    let r1 ← randomVec
    let r2 ← randomVec
    pure (fun j => Num.cos (r1 j * Num.sign (r2 j - 0.5) * Num.pi) * (x j - ctr j) + ctr j))

/-- the hunt (`mealpy/swarm_based/ChameleonSA.py:143-152`): positions, velocities and previous velocities -/
def hunt (p : Params K) (s : St c Nat (Vars d K)) (omega a : K) (xs : List (Vec d K)) : D c (List (Vec d K) × List (Vec d K) × List (Vec d K)) :=
  iter c.popSize (fun idx q => do
    let r1 ← random
    let r2 ← random
    let x ← nth q.1 idx
    let v ← nth q.2.1 idx
    let pv ← nth q.2.2 idx
    let o ← nth s.ext.own idx
    let own := o.sol (s.pop.map (·.ext)) q.1
    let v' : Vec d K := fun j => omega * v j + p.c1 * r1 * (s.gbest.sol j - x j) + p.c2 * r2 * (own j - x j)
    let x' : Vec d K := fun j => x j + (v' j * v' j - pv j * pv j) / (2 * (a + Num.EPSILON))
    pure (q.1.set idx x', q.2.1.set idx v', q.2.2.set idx v')) (xs, s.ext.vel, s.ext.prev)

/-- the personal bests afterwards (`mealpy/swarm_based/ChameleonSA.py:164-166`) -/
def remember (pop : List (Agent d K Nat)) (own : List (Own d K)) : List (Own d K) :=
  List.zipWith (fun a o => if compareTarget a.tgt (o.tgt pop a.tgt) c.P.mm then .kept a.sol a.tgt else o) pop own

/-- `OriginalChameleonSA.evolve` (`mealpy/swarm_based/ChameleonSA.py:113-166`) -/
def evolve (p : Params K) (ep : Nat) : M c Nat (Vars d K) Unit := do
  let mu : K := p.gama * Num.exp (-p.alpha * ♯ep / ♯c.epoch)
  let omega : K := Num.pow (1 - ♯ep / ♯c.epoch) (p.rho * Num.sqrt (♯ep / ♯c.epoch))
  let a : K := 2590 * (1 - Num.exp (-Num.log (♯(ep + 1))))
  let s ← get
  let xs ← draw (search p s mu)
  let xs ← draw (rotate xs)
  let q ← draw (hunt p s omega a xs)
  let new ← buildEval c.popSize (fun _ idx => do
    let x ← nth q.1 idx
    let b ← nth s.pop idx
    let pos ← correct x
    pure (pos, b.ext))
  setPop new
  modExt (fun y => { own := remember (c := c) new y.own, vel := q.2.1, prev := q.2.2 })

/-- one entry for each slot -/
structure Ok (c : Cfg d K) (y : Vars d K) : Prop where
  own : y.own.length = c.popSize
  vel : y.vel.length = c.popSize
  prev : y.prev.length = c.popSize

theorem dt_search {p : Params K} {s : St c Nat (Vars d K)} {mu : K} (hl : s.pop.length = c.popSize) (hy : Ok c s.ext) :
    DT noErr (search p s mu : D c _) (fun xs => xs.length = c.popSize) := by
  unfold search
  have ho := hy.own
  refine DT.iter (I := fun _ (xs : List (Vec d K)) => xs.length = c.popSize) _ (by simpa using hl) fun i xs hi hx => ?_
  refine DT.bind DT.random' fun _ _ => DT.bind DT.random' fun _ _ => DT.bind DT.random' fun _ _ => DT.bind DT.random' fun _ _ => ?_
  refine DT.bind (DT.nth_mem (by omega)) fun x _ => DT.bind (DT.nth_mem (by omega)) fun o _ => ?_
  dsimp only
  exact DT.bind (show DT noErr _ (fun _ => True) from DT.ite (fun _ => DT.pure trivial) fun _ => DT.bind DT.randomVec fun _ _ => DT.pure trivial) fun pos _ => DT.pure (by simpa using hx)

theorem dt_rotate {xs : List (Vec d K)} : DT noErr (rotate xs : D c _) (fun l => l.length = xs.length) := by
  unfold rotate
  refine DT.mono (DT.repM (Q := fun _ => True) fun i hi => ?_) fun l h => h.1
  exact DT.bind (DT.nth_mem (by omega)) fun x _ => DT.bind DT.randomVec fun _ _ => DT.bind DT.randomVec fun _ _ => DT.pure trivial

theorem dt_hunt {p : Params K} {s : St c Nat (Vars d K)} {w a : K} {xs : List (Vec d K)} (hx : xs.length = c.popSize) (hy : Ok c s.ext) :
    DT noErr (hunt p s w a xs : D c _) (fun q => q.1.length = c.popSize ∧ q.2.1.length = c.popSize ∧ q.2.2.length = c.popSize) := by
  unfold hunt
  have ho := hy.own
  refine DT.iter (I := fun _ (q : List (Vec d K) × List (Vec d K) × List (Vec d K)) => q.1.length = c.popSize ∧ q.2.1.length = c.popSize ∧ q.2.2.length = c.popSize) _ ⟨hx, hy.vel, hy.prev⟩ fun i q hi hq => ?_
  obtain ⟨h1, h2, h3⟩ := hq
  refine DT.bind DT.random' fun _ _ => DT.bind DT.random' fun _ _ => DT.bind (DT.nth_mem (by omega)) fun x _ => DT.bind (DT.nth_mem (by omega)) fun v _ => ?_
  refine DT.bind (DT.nth_mem (by omega)) fun pv _ => DT.bind (DT.nth_mem (by omega)) fun o _ => ?_
  exact DT.pure ⟨by simpa using h1, by simpa using h2, by simpa using h3⟩

/-- `OriginalChameleonSA` (`mealpy/swarm_based/ChameleonSA.py:14-166`) -/
def algo (p : Params K) : Algo c Nat (Vars d K) := Algo.preNumbered true (pure ⟨[], [], []⟩) before (evolve p)

theorem ok (hE : c.E.Lawful) (hP : c.P.Lawful) (hc : Accepted c 5) (p : Params K) :
    (algo p : Algo c Nat (Vars d K)).Ok (FA c) JT JT (Ok c) c.popSize c.popSize c.popSize := by
  have hpop := hc.pop
  unfold algo
  refine Algo.preNumbered_ok (J := (Ok c)) hE hP (by dgo) (by intro s hs; exact DT.pure ⟨by simpa using hs, by simp, by simp⟩) (fun ep hep1 hep2 => ?_)
  unfold evolve
  refine RT.pt (RT.bind0 RJ.get fun s hs => ?_)
  have hl : s.pop.length = c.popSize := hs.len
  have hy : Ok c s.ext := hs.ext
  refine RT.bind0 (RJ.draw (dt_search hl hy)) fun xs hx => RT.bind0 (RJ.draw dt_rotate) fun xs' hx' => RT.bind0 (RJ.draw (dt_hunt (by omega) hy)) fun q hq => ?_
  refine RT.bindS (RJ.buildEval hE fun s' i _ _ hi => ?_) (by omega) fun new hnew => ?_
  · exact DT.bind (DT.nth_mem (by omega)) fun x _ => DT.bind (DT.nth_mem (by omega)) fun b _ => DT.bind (DT.correct hP) fun pos hp => DT.pure (FA.mkOk hp)
  have hnl : new.length = c.popSize := by omega
  refine RT.thenIT (l1 := 0) (h1 := 0) (RT.setPop hnl (fun a ha => by simpa using ha) fun a ha => ⟨a, by simpa using ha, NoWorse.rfl⟩) (by omega) fun _ _ => ?_
  exact IT.weaken (IT.modExt fun y h => ⟨by simp [remember, hnl, h.own], hq.2.1, hq.2.2⟩) (by omega) (by omega)

theorem framed (hE : c.E.Lawful) (p : Params K) (ep : Nat) : Framed true (evolve p ep : M c Nat (Vars d K) Unit) := by
  unfold evolve; framed

end OriginalChameleonSA

namespace IChameleonSA

/-- the hyper-parameters (`mealpy/swarm_based/ChameleonSA.py:233-236`) -/
structure Params (K : Type) where
  rChaos : K
  kSpiral : K
  p1 : K
  p2 : K

/-- the velocities and the personal bests -/
structure Vars (d : Nat) (K : Type) where
  vel : List (Vec d K)
  own : List (Vec d K × Target K)

/-- the chaotic map (`mealpy/swarm_based/ChameleonSA.py:244-247`): every row but the first is overwritten -/
def chaos (r : K) (first : Vec d K) : Nat → Vec d K
  | 0 => first
  | n + 1 => fun j => r * chaos r first n j * (1 - chaos r first n j)

/-- `initialization` (`mealpy/swarm_based/ChameleonSA.py:241-258`). `pop_personal` holds the agents of the population themselves; that matters
only in the first epoch, see `drift`. -/
def initialization (p : Params K) (_y : Vars d K) (q : Option (List (Agent d K Unit))) : B c (List (Agent d K Unit) × Vars d K) := do
  let pop ← (match q with
    | none => do
      let rows ← liftD (repM c.popSize (fun _ => randomVec))
      let first ← liftD (nth rows 0)
      buildB c.popSize (fun idx => do
        let pos ← correct (fun j => c.P.lb j + chaos p.rChaos first idx j * (c.P.ub j - c.P.lb j))
        pure (pos, ()))
    | some l => pure l : B c (List (Agent d K Unit)))
  pure (pop, ⟨List.replicate c.popSize (fun _ => 0), pop.map (fun a => (a.sol, a.tgt))⟩)

/-- the spiral search (`mealpy/swarm_based/ChameleonSA.py:264-274`); `r2` is drawn and not used. The solutions are assigned without
evaluation. -/
def drift (p : Params K) (s : St c Unit (Vars d K)) : D c (List (Vec d K)) := do
  let mean : K := meanL (s.pop.map (·.fit))
  repM c.popSize (fun idx => do
    let a ← nth s.pop idx
    let o ← nth s.ext.own idx
    let g := s.gbest.sol
    if compareFitness a.fit mean c.P.mm then do
      let r1 ← random
      let _r2 ← random
      pure (fun j => a.sol j + p.p1 * r1 * (o.1 j - g j) + p.p2 * r1 * (g j - a.sol j))
    else do
      let ll ← uniform (-1) 1
      let r ← random
      let sgn : K := Num.sign (r - 0.5)
      pure (fun j => g j + Num.exp (p.kSpiral * ll) * Num.cos (2 * Num.pi * ll) * (g j - a.sol j) * sgn))

/-- the solutions of the better of the moved agents, which carry the targets of the places they left, and the new ones
(`mealpy/swarm_based/ChameleonSA.py:290, 294`) -/
def settle (pop new : List (Agent d K Unit)) (xs : List (Vec d K)) : List (Vec d K) :=
  List.zipWith (fun (m n : Agent d K Unit) => (if c.swarmLike then greedyPick c.P.mm m n else getBetterAgent n m c.P.mm).sol)
    (List.zipWith (fun a x => ⟨x, a.tgt, ()⟩) pop xs) new

/-- the hunt and its refraction (`mealpy/swarm_based/ChameleonSA.py:301-323`) -/
def hunt (ep : Nat) (xs : List (Vec d K)) (idx : Nat) : M c Unit (Vars d K) Unit := do
  let w : K := Num.pow (1 - ♯ep / ♯c.epoch) (2 * Num.sqrt (♯ep / ♯c.epoch))
  let l : K := Num.pow (1 - ♯ep / ♯c.epoch) (Num.sqrt (♯ep / ♯c.epoch))
  let a : K := 2590 * (1 - Num.exp (-Num.log (♯ep)))
  let r1 ← draw random
  let r2 ← draw random
  let s ← get
  let x ← draw (nth xs idx)
  let v ← draw (nth s.ext.vel idx)
  let o ← draw (nth s.ext.own idx)
  let v' : Vec d K := fun j => l * v j + w * r1 * (s.gbest.sol j - x j) + w * r2 * (o.1 j - x j)
  let prey : Vec d K := if a = 0 then x else fun j => x j + (v' j * v' j - v j * v j) / (2 * a)
  modExt (fun y => { y with vel := y.vel.set idx v' })
  let xh ← draw (correct prey)
  let xr ← draw (correct (fun j => (c.P.lb j + c.P.ub j) / 2 + (c.P.lb j + c.P.ub j) / (2 * ♯ep) - prey j / ♯ep))
  let ah ← liftB (agentOf (fun _ => pure ()) xh)
  let ar ← liftB (agentOf (fun _ => pure ()) xr)
  setAt idx (if compareTarget ar.tgt ah.tgt c.P.mm then ar else ah)

/-- the personal bests afterwards (`mealpy/swarm_based/ChameleonSA.py:326-328`) -/
def remember (pop : List (Agent d K Unit)) (own : List (Vec d K × Target K)) : List (Vec d K × Target K) :=
  List.zipWith (fun a o => if compareTarget a.tgt o.2 c.P.mm then (a.sol, a.tgt) else o) pop own

/-- `IChameleonSA.evolve` (`mealpy/swarm_based/ChameleonSA.py:260-328`). In the first epoch the personal bests are the members of the
population themselves (`ChameleonSA.py:258`), so they drift too; afterwards they are copies, since every slot of the population is rebound. -/
def evolve (p : Params K) (ep : Nat) : M c Unit (Vars d K) Unit := do
  let s ← get
  let xs ← draw (drift p s)
  modExt (fun y => { y with own := if ep = 1 then List.zipWith (fun o x => (x, o.2)) y.own xs else y.own })
  let ct : K := 0.075 * (1 + Num.cos (Num.pi * ♯ep / ♯c.epoch))
  let new ← buildEval c.popSize (fun _ idx => do
    let step ← levyVec 1.5 1 (-1)
    let x ← nth xs idx
    let pos ← correct (fun j => x j + ct * (s.gbest.sol j - x j) * step j)
    pure (pos, ()))
  iter c.popSize (fun idx _ => hunt ep (settle (c := c) s.pop new xs) idx) ()
  let s ← get
  modExt (fun y => { y with own := remember (c := c) s.pop y.own })

/-- one entry for each slot -/
structure Ok (c : Cfg d K) (y : Vars d K) : Prop where
  vel : y.vel.length = c.popSize
  own : y.own.length = c.popSize

theorem bt_none (hE : c.E.Lawful) (hP : c.P.Lawful) (h0 : 0 < c.popSize) {p : Params K} {y : Vars d K} :
    BT noErr c.popSize c.popSize (initialization p y none : B c _) (fun r => r.1.length = c.popSize ∧ (∀ a ∈ r.1, CF c a) ∧ Ok c r.2) := by
  unfold initialization
  refine BT.bindS (BT.bind0 (BT.liftD (DT.repM (Q := fun _ => True) fun i _ => DT.randomVec)) fun rows hr => BT.bind0 (BT.liftD (DT.nth_mem (by omega))) fun first _ =>
    BT.buildB hE fun i hi => DT.bind (DT.correct hP) fun pos hp => DT.pure hp) le_rfl fun pop hpop => ?_
  exact BT.weaken (BT.pure ⟨hpop.1, hpop.2, by simp, by simpa using hpop.1⟩) (by omega) (by omega)

theorem bt_some {p : Params K} {y : Vars d K} {pop : List (Agent d K Unit)} (hl : pop.length = c.popSize) (hc : ∀ a ∈ pop, CF c a) :
    BT noErr (c.popSize - c.popSize) (c.popSize - c.popSize) (initialization p y (some pop) : B c _)
      (fun r => r.1.length = c.popSize ∧ (∀ a ∈ r.1, CF c a) ∧ Ok c r.2) := by
  unfold initialization
  rw [pure_bind]
  exact BT.weaken (BT.pure ⟨hl, hc, by simp, by simpa using hl⟩) (by omega) (by omega)

theorem dt_drift {p : Params K} {s : St c Unit (Vars d K)} (hl : s.pop.length = c.popSize) (hy : Ok c s.ext) :
    DT noErr (drift p s : D c _) (fun xs => xs.length = c.popSize) := by
  unfold drift
  have ho := hy.own
  refine DT.mono (DT.repM (Q := fun _ => True) fun i hi => ?_) fun l h => h.1
  refine DT.bind (DT.nth_mem (by omega)) fun a _ => DT.bind (DT.nth_mem (by omega)) fun o _ => DT.ite (fun _ => ?_) fun _ => ?_
  · exact DT.bind DT.random' fun _ _ => DT.bind DT.random' fun _ _ => DT.pure trivial
  · exact DT.bind DT.uniform' fun _ _ => DT.bind DT.random' fun _ _ => DT.pure trivial

theorem wt_hunt (hP : c.P.Lawful) {ep : Nat} {xs : List (Vec d K)} (hx : xs.length = c.popSize) {idx : Nat} (hi : idx < c.popSize) :
    WT noErr (Inv.std c Unit (Ok c)) 2 2 (hunt ep xs idx : M c Unit (Vars d K) _) (fun _ => True) := by
  unfold hunt
  dsimp only
  refine WT.bind0 (WT.draw DT.random') fun r1 _ => WT.bind0 (WT.draw DT.random') fun r2 _ => WT.bind0 WT.get fun s hs => ?_
  have hy : Ok c s.ext := hs.ext
  have hv := hy.vel
  have ho := hy.own
  refine WT.bind0 (WT.draw (DT.nth_mem (by omega))) fun x _ => WT.bind0 (WT.draw (DT.nth_mem (by omega))) fun v _ => WT.bind0 (WT.draw (DT.nth_mem (by omega))) fun o _ => ?_
  refine WT.bind0 (WT.modExt fun y hy => ⟨by simpa using hy.vel, hy.own⟩) fun _ _ => WT.bind0 (WT.draw (DT.correct hP)) fun xh hxh => WT.bind0 (WT.draw (DT.correct hP)) fun xr hxr => ?_
  refine WT.agentOf_std hxh (DT.pure trivial) (by omega) fun ah hah => WT.agentOf_std hxr (DT.pure trivial) (by omega) fun ar har => ?_
  refine WT.weaken (WT.setAt (by wsz) ?_) (by omega) (by omega)
  split
  · exact Inv.std_ag har
  · exact Inv.std_ag hah

theorem framed_hunt (hE : c.E.Lawful) {q : Bool} {ep : Nat} {xs : List (Vec d K)} {idx : Nat} : Framed q (hunt ep xs idx : M c Unit (Vars d K) _) := by
  unfold hunt; framed

macro_rules
  | `(tactic| fprim) => `(tactic| (at_last IChameleonSA.hunt; exact IChameleonSA.framed_hunt (by assumption)))

/-- `IChameleonSA` (`mealpy/swarm_based/ChameleonSA.py:169-328`) -/
def algo (p : Params K) : Algo c Unit (Vars d K) := Algo.custom false (fun _ => pure ()) (pure ⟨[], []⟩) (initialization p) (evolve p)

theorem wok (hE : c.E.Lawful) (hP : c.P.Lawful) (hc : Accepted c 5) (p : Params K) :
    (algo p : Algo c Unit (Vars d K)).WOk noErr (Inv.std c Unit (Ok c)) JT (Ok c) c.popSize c.popSize 0 0 (3 * c.popSize) (3 * c.popSize) := by
  have hpop := hc.pop
  unfold algo
  refine Algo.custom_wok (J := (Ok c)) (J0 := JT) (by omega) (fun x hx => by dgo) (by dgo) (by omega) (fun y hy => bt_none hE hP (by omega)) (fun y pop hy hl hp => bt_some hl hp) (fun ep hep1 hep2 => ?_)
  unfold evolve
  refine WT.bind0 WT.get fun s hs => ?_
  have hl : s.pop.length = c.popSize := hs.len
  have hy : Ok c s.ext := hs.ext
  refine WT.bind0 (WT.draw (dt_drift hl hy)) fun xs hx => WT.bind0 (WT.modExt fun y h => ⟨h.vel, ?_⟩) fun _ _ => ?_
  · have := h.own
    dsimp only
    split
    · simp [hx, this]
    · exact this
  dsimp only
  refine WT.bindS (WT.buildEval hE fun s' i _ hi => ?_) (by omega) fun new hnew => ?_
  · exact DT.bind DT.levyVec fun st _ => DT.bind (DT.nth_mem (by omega)) fun x _ => DT.bind (DT.correct hP) fun pos hp => DT.pure (Inv.std_mk hp)
  have hsl : (settle (c := c) s.pop new xs).length = c.popSize := by simp [settle, hl, hx, hnew.1]
  refine WT.bindS (l1 := 2 * c.popSize) (h1 := 2 * c.popSize) (R := fun _ => True) (WT.iterU 2 2 (by omega) (by omega) fun i hi => wt_hunt hP hsl hi) (by omega) fun _ _ => ?_
  refine WT.bind0 WT.get fun s' hs' => WT.weaken (WT.modExt fun y h => ⟨h.vel, ?_⟩) (by omega) (by omega)
  have h1 : s'.pop.length = c.popSize := hs'.len
  simp [remember, h1, h.own]

theorem framed (hE : c.E.Lawful) (p : Params K) (ep : Nat) : Framed true (evolve p ep : M c Unit (Vars d K) Unit) := by
  unfold evolve; framed

end IChameleonSA

end Mealpy
