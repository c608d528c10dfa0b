import Verif.Alg.Light
import Verif.Alg.Kit19

/-!
# Algorithms that write into solution arrays

`OriginalBeesA`, `ProbBeesA` and `OriginalTHRO` assign to entries of arrays that the population, `g_best` and the history hold.  Agents carry
the identity of their array (`Verif.Alg.Alias`).
-/

set_option linter.unusedSectionVars false
set_option linter.unusedVariables false

namespace Mealpy
open Spec

variable {d : Nat} {K : Type} [Num K] {c : Cfg d K} {X Y : Type} {α β : Type} {Er : Err → Prop}

/-! ## Tools -/

/-- a list comprehension -/
def collect (n : Nat) (f : Nat → M c X Y α) : M c X Y (List α) := iter n (fun i acc => do
  let a ← f i
  pure (acc ++ [a])) []

theorem LT.collect {I : LInv d K Y} {n k1 k2 : Nat} {f : Nat → M c X Y α} {R : α → Prop} (h : ∀ i, i < n → LT Er I k1 k2 (f i) R) :
    LT Er I (n * k1) (n * k2) (Mealpy.collect n f) (fun l => l.length = n ∧ ∀ a ∈ l, R a) := by
  unfold Mealpy.collect
  refine LT.iter (lo := k1) (hi := k2) (fun i (l : List α) => l.length = i ∧ ∀ a ∈ l, R a) n ⟨rfl, by simp⟩ fun i l hi hl => ?_
  refine LT.bindL (h i hi) fun a ha => LT.pure ⟨by simp [hl.1], fun b hb => ?_⟩
  rcases List.mem_append.1 hb with hb | hb
  · exact hl.2 b hb
  · rw [List.mem_singleton.1 hb]; exact ha

/-- a new agent with an array of its own -/
def newAgent (x : Vec d K) : M c Nat Nat (Agent d K Nat) := do
  let id ← fresh
  liftB (agentOf (fun _ => pure id) x)

theorem LT.newAgent {I : LInv d K Nat} (hn : ∀ n, I.attr n → I.attr (n + 1)) {x : Vec d K} (hx : I.pos x) :
    LT Er I 1 1 (Mealpy.newAgent x : M c Nat Nat _) (fun _ => True) := by
  unfold Mealpy.newAgent
  refine LT.bind0 (LT.fresh hn) fun id _ s hs => ?_
  refine Wp.liftB ?_
  unfold Mealpy.agentOf
  refine Wp.bind (Wp.liftD (DT.pure (Er := Er) (Q := fun _ => True) trivial) fun a r v _ => Wp.bind (Wp.getTarget (Wp.pure ⟨?_, trivial⟩)))
  exact LStep.base hs ⟨[x], rfl, by simp, by simp, fun y hy => by rw [List.mem_singleton.1 hy]; exact hx⟩

/-- `self.generate_agent()` -/
def newRandom : M c Nat Nat (Agent d K Nat) := do
  let id ← fresh
  liftB (generateAgent (fun _ => pure id))

theorem LT.newRandom (hP : c.P.Lawful) {I : LInv d K Nat} (hn : ∀ n, I.attr n → I.attr (n + 1)) (hB : ∀ x, Feas c x → I.pos x) :
    LT Er I 1 1 (Mealpy.newRandom : M c Nat Nat _) (fun _ => True) :=
  LT.bind0 (LT.fresh hn) fun id _ => LT.generateAgent hP hB fun _ => DT.pure trivial

theorem Algo.tagged_lok (hE : c.E.Lawful) (hP : c.P.Lawful) {sf : Bool} {ev : Nat → M c Nat Nat Unit} {lo hi : Nat} {pos : Vec d K → Prop}
    (hpos : 0 < c.popSize) (hbox : ∀ x, Feas c x → pos x)
    (h : ∀ ep, 1 ≤ ep → ep ≤ c.epoch → LT Er ⟨pos, fun n => n = c.popSize, JT⟩ lo hi (ev ep) (fun _ => True)) :
    (Algo.tagged sf ev).LOk Er (⟨pos, fun n => n = c.popSize, JT⟩ : LInv d K Nat) JT JT c.popSize c.popSize 0 0 lo hi := by
  have h0 := Algo.std_lok (Er := Er) (I := (⟨pos, fun n => n = c.popSize, JT⟩ : LInv d K Nat)) (lo := lo) (hi := hi)
    (A := { Algo.tagged sf ev with initialization := defaultInit (fun _ => Pure.pure 0) }) hE hP rfl
    (fun n hn => by have : n = c.popSize := hn; omega) hbox rfl rfl (fun _ => DT.pure trivial) (DT.pure trivial) h
  refine ⟨h0.box, h0.nonempty, h0.mkExt, h0.initVars, ?_, h0.before, h0.evolve⟩
  intro y p b hy hp
  show Wp Er (tagInit y p) b _
  unfold tagInit
  refine Wp.bind (Wp.mono (h0.init y p b hy hp) ?_)
  rintro r b' ⟨h1, -, h3⟩
  refine Wp.pure ⟨?_, trivial, h3⟩
  show (r.1.mapIdx _).length = c.popSize
  rw [List.length_mapIdx]; exact h1

/-- the usual invariant: feasible evaluations, `pop_size` agents -/
abbrev TI (c : Cfg d K) : LInv d K Nat := ⟨Feas c, fun n => n = c.popSize, JT⟩

/-! ## Bees -/

/-- `perform_dance__` (`mealpy/swarm_based/BeesA.py:216-219`, `:330-333`): one entry of the agent's own array is changed; the corrected copy is
the array of the new bee -/
def dance (r : K) (idx : Nat) : M c Nat Nat (Vec d K × Nat) := do
  let me ← popAt idx
  let j ← draw (index d)
  let u ← draw (uniform (-1) 1)
  let v : Vec d K := fun k => if k.val = j then me.sol k + r * u else me.sol k
  poke me.ext v
  let x ← draw (correct v)
  let id ← fresh
  pure (x, id)

/-- the best of `n` bees sent to a site (`mealpy/swarm_based/BeesA.py:232-240`, `:363-371`) -/
def site (r : K) (n idx : Nat) : M c Nat Nat (Agent d K Nat) := do
  let pend ← collect n (fun _ => dance r idx)
  let kids ← evalAll pend
  draw (bestAgent kids)

theorem lt_site (hE : c.E.Lawful) (hP : c.P.Lawful) (hd : 0 < d) {r : K} {n idx : Nat} (hn : 0 < n) (hi : idx < c.popSize) :
    LT Er (TI c) n n (site r n idx : M c Nat Nat _) (fun _ => True) := by
  unfold site
  have h1 : LT Er (TI c) 0 0 (collect n (fun _ => dance r idx) : M c Nat Nat _) (fun l => l.length = n ∧ ∀ q ∈ l, Feas c q.1) := by
    refine LT.weaken (lo := n * 0) (hi := n * 0) (LT.collect fun i _ => ?_) (by omega) (by omega)
    unfold dance
    refine LT.bind0 (LT.popAt fun n hn => by have : n = c.popSize := hn; omega) fun me _ => LT.bind0 (LT.draw (DT.index hE hd)) fun j _ =>
      LT.bind0 (LT.draw (R := fun _ => True) (by dprim)) fun u _ => ?_
    dsimp only
    exact LT.bind0 LT.poke fun _ _ => LT.bind0 (LT.draw (DT.correct hP)) fun x hx => LT.bind0 (LT.fresh fun _ _ => trivial) fun id _ => LT.pure hx
  refine LT.bind0 h1 fun pend hp => ?_
  have h2 := LT.evalAll (Er := Er) (I := TI c) hE (pend := pend) hp.2
  rw [hp.1] at h2
  refine LT.bindL h2 fun kids hk => ?_
  exact LT.mono (LT.draw (DT.bestAgent hE (by omega))) fun _ _ => trivial

namespace OriginalBeesA

/-- the hyper-parameters (`mealpy/swarm_based/BeesA.py:204-213`); `radius0` is `dyn_radius` before the run, the radius itself in a first run -/
structure Params (K : Type) where
  radius0 : K
  radius : K
  reduction : K
  selected : Nat
  elite : Nat
  selectedLocal : Nat
  eliteLocal : Nat

/-- one site (`mealpy/swarm_based/BeesA.py:231-258`); `none`: `pop_new[idx]` stays the object `self.pop[idx]` -/
def visit (p : Params K) (r : K) (idx : Nat) : M c Nat Nat (Option (Agent d K Nat)) :=
  if idx < p.selected ∨ idx < p.elite then do
    let best ← site r (if idx < p.elite then p.eliteLocal else p.selectedLocal) idx
    let me ← popAt idx
    pure (if compareTarget best.tgt me.tgt c.P.mm then some best else none)
  else do
    let a ← newRandom
    pure (some a)

/-- `OriginalBeesA.evolve` (`mealpy/swarm_based/BeesA.py:221-261`) -/
def evolve (p : Params K) (ep : Nat) : M c Nat Nat Unit := do
  let r := if ep = 1 then p.radius0 else p.reduction * p.radius
  let new ← collect c.popSize (fun idx => visit p r idx)
  let s ← get
  setPop (List.zipWith (fun a o => o.getD a) s.pop new)

/-- `OriginalBeesA` (`mealpy/swarm_based/BeesA.py:136-261`) -/
def algo (p : Params K) : Algo c Nat Nat := Algo.tagged true (evolve p)

theorem lok (hE : c.E.Lawful) (hP : c.P.Lawful) (hc : Accepted c 5) (hd : 0 < d) (p : Params K) (h1 : 1 ≤ p.selectedLocal) (h2 : 1 ≤ p.eliteLocal) :
    (algo p : Algo c Nat Nat).LOk (only []) (TI c) JT JT c.popSize c.popSize 0 0
      c.popSize (c.popSize * max p.selectedLocal p.eliteLocal) := by
  have hpop := hc.pop
  refine Algo.tagged_lok hE hP (by omega) (fun x h => h) fun ep _ _ => ?_
  unfold evolve
  dsimp only
  have hv : LT (only []) (TI c) (c.popSize * 1) (c.popSize * max p.selectedLocal p.eliteLocal)
      (collect c.popSize (fun idx => visit p (if ep = 1 then p.radius0 else p.reduction * p.radius) idx) : M c Nat Nat _)
      (fun l => l.length = c.popSize ∧ ∀ a ∈ l, True) := by
    refine LT.collect fun idx hi => ?_
    unfold visit
    refine LT.ite (fun _ => ?_) fun _ => ?_
    · refine LT.weaken (LT.bindL (lt_site hE hP hd (by split <;> omega) hi) fun best _ => ?_) (by split <;> omega) (by split <;> omega)
      exact LT.bind0 (LT.popAt fun n hn => by have : n = c.popSize := hn; omega) fun me _ => LT.pure trivial
    · exact LT.weaken (LT.bindL (LT.newRandom hP (fun _ _ => trivial) fun x h => h) fun a _ => LT.pure trivial) (by omega) (by omega)
  rw [Nat.mul_one] at hv
  refine LT.bindL hv fun new hn => LT.bind0 LT.get fun s hs => LT.setPop ?_
  have hl : s.pop.length = c.popSize := hs.len
  show (List.zipWith _ s.pop new).length = c.popSize
  rw [List.length_zipWith, hl, hn.1, Nat.min_self]

end OriginalBeesA

namespace ProbBeesA

/-- the hyper-parameters (`mealpy/swarm_based/BeesA.py:322-328`); `radius0` is `dyn_radius` before the run -/
structure Params (K : Type) where
  radius0 : K
  radius : K
  reduction : K
  recruited : Nat

/-- the scores (`mealpy/swarm_based/BeesA.py:343-345`) -/
def scores (pop : List (Agent d K Nat)) : List K :=
  let l := pop.map (fun a => 1.0 / (a.fit + Num.EPSILON))
  l.map (fun f => f / meanL l)

/-- the rejection probability (`mealpy/swarm_based/BeesA.py:348-355`) -/
def reject (f : K) : K := if f < 0.9 then 0.6 else if f < 0.95 then 0.2 else if f < 1.15 then 0.05 else 0

/-- the number of bees (`mealpy/swarm_based/BeesA.py:359-361`).  (`int()` of an infinite or undefined score raises; such scores have no
counterpart here.) -/
def bees (p : Params K) (n : Nat) (f : K) : Nat :=
  let k := (Num.ceil (f * ♯p.recruited)).toNat
  let k := if k < 2 then 2 else k
  if n < k then n else k

/-- `ProbBeesA.evolve` (`mealpy/swarm_based/BeesA.py:335-377`) -/
def evolve (p : Params K) (ep : Nat) : M c Nat Nat Unit := do
  let r := if ep = 1 then p.radius0 else p.reduction * p.radius
  let s ← get
  let fs := scores s.pop
  iter c.popSize (fun idx _ => do
    let f ← draw (nth fs idx)
    let u ← draw random
    if reject f ≤ u then do
      let best ← site r (bees p c.popSize f) idx
      let me ← popAt idx
      if compareTarget best.tgt me.tgt c.P.mm then setAt idx best else pure ()
    else do
      let a ← newRandom
      setAt idx a) ()

/-- `ProbBeesA` (`mealpy/swarm_based/BeesA.py:264-377`) -/
def algo (p : Params K) : Algo c Nat Nat := Algo.tagged true (evolve p)

theorem lok (hE : c.E.Lawful) (hP : c.P.Lawful) (hc : Accepted c 5) (hd : 0 < d) (p : Params K) :
    (algo p : Algo c Nat Nat).LOk (only []) (TI c) JT JT c.popSize c.popSize 0 0 c.popSize (c.popSize * c.popSize) := by
  have hpop := hc.pop
  refine Algo.tagged_lok hE hP (by omega) (fun x h => h) fun ep _ _ => ?_
  unfold evolve
  dsimp only
  refine LT.bind0 LT.get fun s hs => LT.iterU 1 c.popSize (by omega) (by omega) fun idx hi => ?_
  have hl : s.pop.length = c.popSize := hs.len
  refine LT.bind0 (LT.draw (DT.nth_mem (by simp [scores]; omega))) fun f _ => LT.bind0 (LT.draw (DT.random hE)) fun u _ => LT.ite (fun _ => ?_) fun _ => ?_
  · have hb : 2 ≤ bees p c.popSize f ∧ bees p c.popSize f ≤ c.popSize := by
      unfold bees
      dsimp only
      split <;> split <;> omega
    refine LT.weaken (LT.bindL (lt_site hE hP hd (by omega) hi) fun best _ => ?_) (by omega) hb.2
    exact LT.bind0 (LT.popAt fun n hn => by have : n = c.popSize := hn; omega) fun me _ =>
      LT.ite (fun _ => LT.setAt fun n hn => by have : n = c.popSize := hn; omega) fun _ => LT.pure trivial
  · exact LT.weaken (LT.bindL (LT.newRandom hP (fun _ _ => trivial) fun x h => h) fun a _ =>
      LT.setAt fun n hn => by have : n = c.popSize := hn; omega) (by omega) (by omega)

end ProbBeesA

/-! ## Horses -/

namespace OriginalTHRO

/-- a row of the binary matrices (`mealpy/game_based/THRO.py:100-107`) -/
def mask : D c (Vec d K) := do
  let dims ← permutation d
  let u ← random
  let n := Num.ceil (Num.sin (Num.pi / 2 * u) * ♯d)
  pure (fun j => if j.val ∈ sliceTo dims n then 1 else 0)

/-- the four factors of a race (`mealpy/game_based/THRO.py:120-123`): alpha and beta of both sides -/
def factors : D c (K × K × K × K) := do
  let a ← random
  let b ← normal 0 1
  let e ← random
  let f ← normal 0 1
  let g ← random
  let h ← normal 0 1
  let k ← random
  let l ← normal 0 1
  pure (1 + Num.ufunc "round" (0.5 * (0.5 + a)) * b, Num.ufunc "round" (0.5 * (0.1 + e)) * f,
    1 + Num.ufunc "round" (0.5 * (0.5 + g)) * h, Num.ufunc "round" (0.5 * (0.1 + k)) * l)

/-- the position a horse runs to; the five scenarios differ in the two horses only (`mealpy/game_based/THRO.py:151-153`, ...) -/
def runTo (p alpha beta : K) (r x y mt mk : Vec d K) : Vec d K :=
  fun j => ((p * x j + (1 - p) * y j) + r j * (y j - x j + p * (mt j - mk j))) * alpha + beta

/-- evaluate, and keep when better (`mealpy/game_based/THRO.py:154-157`, ...) -/
def contend (l : List (Agent d K Nat)) (i : Nat) (y : Vec d K) : M c Nat Nat (List (Agent d K Nat)) := do
  let x ← draw (correct y)
  let a ← newAgent x
  let me ← draw (nth l i)
  pure (if compareTarget a.tgt me.tgt c.P.mm then l.set i a else l)

/-- which horses run: Tianji's horse and the one it is compared with, the king's horse; `beaten`: the latter is compared with the former,
otherwise with the king's first.  The rest are the indices of the next race. -/
structure Plan where
  t : Nat
  with_ : Nat
  k : Nat
  beaten : Bool
  ts : Nat
  tf : Nat
  ks : Nat
  kf : Nat

/-- `1`: the first is better, `2`: the second, `3`: neither (`mealpy/game_based/THRO.py:130-143`) -/
def verdict (mm : MinMax) (a b : K) : Nat :=
  match mm with
  | .min => if a < b then 1 else if b < a then 2 else 3
  | .max => if b < a then 1 else if a < b then 2 else 3

/-- the scenario (`mealpy/game_based/THRO.py:128-143`, `:149`, `:168-173`, `:192-211`, `:233-238`, `:258-263`, `:283-284`) -/
def plan (n : Nat) (T KK : List (Agent d K Nat)) (ts tf ks kf : Nat) : D c Plan := do
  let ft ← nth T ts
  let fk ← nth KK ks
  match verdict c.P.mm ft.fit fk.fit with
  | 1 => pure ⟨ts, 0, ks, true, ts - 1, tf, ks - 1, kf⟩
  | 2 => do
    let tr ← pickWithout n [ts]
    pure ⟨ts, tr, kf, false, ts - 1, tf, ks, min (n - 1) (kf + 1)⟩
  | _ => do
    let ft ← nth T tf
    let fk ← nth KK kf
    match verdict c.P.mm ft.fit fk.fit with
    | 1 => pure ⟨tf, 0, kf, true, ts, min (n - 1) (tf + 1), ks, min (n - 1) (kf + 1)⟩
    | 2 => do
      let tr ← pickWithout n [tf]
      pure ⟨ts, tr, kf, false, ts - 1, tf, ks, min (n - 1) (kf + 1)⟩
    | _ => do
      let tr ← pickWithout n [ts]
      pure ⟨ts, tr, kf, false, ts - 1, tf, ks, min (n - 1) (kf + 1)⟩

/-- the two stables and the four indices -/
structure Race (d : Nat) (K : Type) where
  T : List (Agent d K Nat)
  KK : List (Agent d K Nat)
  ts : Nat
  tf : Nat
  ks : Nat
  kf : Nat

/-- one race (`mealpy/game_based/THRO.py:119-284`) -/
def race (n : Nat) (p : K) (tb kb : Vec d K) (z : Race d K) : M c Nat Nat (Race d K) := do
  let (ta, tbeta, ka, kbeta) ← draw factors
  let lt ← draw (levy 1.5 1 (-1))
  let lk ← draw (levy 1.5 1 (-1))
  let mt := meanPos (z.T.map Agent.sol)
  let mk := meanPos (z.KK.map Agent.sol)
  let q ← draw (plan n z.T z.KK z.ts z.tf z.ks z.kf)
  let x ← draw (nth z.T q.t)
  let y ← draw (nth z.T q.with_)
  let T ← contend z.T q.t (runTo p ta tbeta (fun j => lt * tb j) x.sol y.sol mt mk)
  let x ← draw (nth z.KK q.k)
  let y ← draw (if q.beaten then nth T q.t else nth z.KK 0)
  let KK ← contend z.KK q.k (runTo p ka kbeta (fun j => lk * kb j) x.sol y.sol mt mk)
  pure ⟨T, KK, q.ts, q.tf, q.ks, q.kf⟩

/-- what is assigned to the entries of the trained horse's array (`mealpy/game_based/THRO.py:296-303`, `:311-318`).  Each assignment reads only its own
coordinate, so all can be computed first. -/
def lesson (n ep idx : Nat) (l : List (Agent d K Nat)) (best x : Vec d K) : D c (Vec d K) := vecM (fun j => do
  let u ← random
  if 0.5 < u then do
    let (a, b) ← choose2Without n [idx]
    let f ← levy 1.5 0.2 (-1)
    let p ← nth l a
    let q ← nth l b
    pure (x j + f * (p.sol j - q.sol j))
  else do
    let v ← random
    let m : K := 0.5 * (1 + 0.001 * Num.pow (1 - ♯ep / ♯c.epoch) 2 * Num.sin (Num.pi * v))
    pure (best j + m * (best j - x j)))

/-- the stables and the best horses, which share arrays with them -/
structure Stable (d : Nat) (K : Type) where
  T : List (Agent d K Nat)
  KK : List (Agent d K Nat)
  bt : Agent d K Nat
  bk : Agent d K Nat

/-- after `v` has been written into the array `r` -/
def Stable.rewrite (z : Stable d K) (r : Nat) (v : Vec d K) : Stable d K :=
  ⟨z.T.map (Mealpy.rewrite r v), z.KK.map (Mealpy.rewrite r v), Mealpy.rewrite r v z.bt, Mealpy.rewrite r v z.bk⟩

/-- the training of one pair (`mealpy/game_based/THRO.py:293-322`); for the king's horse, too, the array written to is that of Tianji's horse
(line 310) -/
def train (n ep idx : Nat) (z : Stable d K) : M c Nat Nat (Stable d K) := do
  let me ← draw (nth z.T idx)
  let v ← draw (lesson n ep idx z.T z.bt.sol me.sol)
  poke me.ext v
  let z := z.rewrite me.ext v
  let T ← contend z.T idx v
  let z := { z with T := T }
  let me ← draw (nth z.T idx)
  let v ← draw (lesson n ep idx z.KK z.bk.sol me.sol)
  poke me.ext v
  let z := z.rewrite me.ext v
  let KK ← contend z.KK idx v
  pure { z with KK := KK }

/-- `OriginalTHRO.evolve` (`mealpy/game_based/THRO.py:76-325`); `self.rng.sample` of all agents is a permutation of them -/
def evolve (ep : Nat) : M c Nat Nat Unit := do
  let n := c.popSize / 2
  let s ← get
  let order ← draw (permutation s.pop.length)
  let pop ← draw (repM order.length (fun i => do
    let k ← nth order i
    nth s.pop k))
  setPop pop
  let T := (getSorted c.E.argsort (pop.take n) c.P.mm).1
  let KK := (getSorted c.E.argsort (pop.drop n) c.P.mm).1
  let masks ← draw (repM n (fun _ => do
    let t ← mask
    let k ← mask
    pure (t, k)))
  let z ← iter n (fun idx z => do
    let m ← draw (nth masks idx)
    race n (1 - ♯ep / ♯c.epoch) m.1 m.2 z) ⟨T, KK, n - 1, 0, n - 1, 0⟩
  let _ ← updateGlobalBestNoSave (z.T ++ z.KK)
  let bt ← draw (bestAgent z.T)
  let bk ← draw (bestAgent z.KK)
  let z ← iter n (fun idx z => train n ep idx z) ⟨z.T, z.KK, bt, bk⟩
  setPop (z.T ++ z.KK)

/-- `OriginalTHRO` (`mealpy/game_based/THRO.py:12-325`).  The class is not parallelizable; `pop_tianji` and `pop_king` are set anew in every epoch. -/
def algo : Algo c Nat Nat := Algo.tagged false evolve

/-- the stables keep their sizes -/
def Sizes (c : Cfg d K) (T KK : List (Agent d K Nat)) : Prop := T.length = c.popSize / 2 ∧ KK.length = c.popSize - c.popSize / 2

theorem lt_contend (hP : c.P.Lawful) {l : List (Agent d K Nat)} {i : Nat} {y : Vec d K} (hi : i < l.length) :
    LT Er (TI c) 1 1 (contend l i y : M c Nat Nat _) (fun l' => l'.length = l.length) := by
  unfold contend
  refine LT.bind0 (LT.draw (DT.correct hP)) fun x hx => LT.bindL (LT.newAgent (fun _ _ => trivial) hx) fun a _ =>
    LT.bind0 (LT.draw (DT.nth_mem hi)) fun me _ => LT.pure ?_
  split
  · simp
  · rfl

theorem dt_plan (hE : c.E.Lawful) {T KK : List (Agent d K Nat)} {n ts tf ks kf : Nat} (hn : 2 ≤ n) (hT : T.length = n) (hK : n ≤ KK.length)
    (h1 : ts < n) (h2 : tf < n) (h3 : ks < n) (h4 : kf < n) :
    DT Er (plan n T KK ts tf ks kf : D c _) (fun q => q.t < n ∧ q.with_ < n ∧ q.k < n ∧ q.ts < n ∧ q.tf < n ∧ q.ks < n ∧ q.kf < n) := by
  unfold plan
  refine DT.bind (DT.nth_mem (by omega)) fun ft _ => DT.bind (DT.nth_mem (by omega)) fun fk _ => ?_
  split
  · exact DT.pure (by dsimp only; omega)
  · exact DT.bind (DT.pickWithout hE (by simp; omega)) fun tr htr => DT.pure (by dsimp only; omega)
  · refine DT.bind (DT.nth_mem (by omega)) fun ft _ => DT.bind (DT.nth_mem (by omega)) fun fk _ => ?_
    split
    · exact DT.pure (by dsimp only; omega)
    · exact DT.bind (DT.pickWithout hE (by simp; omega)) fun tr htr => DT.pure (by dsimp only; omega)
    · exact DT.bind (DT.pickWithout hE (by simp; omega)) fun tr htr => DT.pure (by dsimp only; omega)

theorem dt_lesson (hE : c.E.Lawful) {n ep idx : Nat} {l : List (Agent d K Nat)} {best x : Vec d K} (hn : 3 ≤ n) (hl : n ≤ l.length) :
    DT Er (lesson n ep idx l best x : D c _) (fun _ => True) := by
  unfold lesson
  refine DT.vecMT fun j => DT.bind (DT.random hE) fun u _ => DT.ite (fun _ => ?_) fun _ => ?_
  · refine DT.bind (DT.choose2Without hE (by simp; omega)) fun ab hab => DT.bind DT.levy fun f _ => ?_
    exact DT.bind (DT.nth_mem (by omega)) fun p _ => DT.bind (DT.nth_mem (by omega)) fun q _ => DT.pure trivial
  · exact DT.bind (DT.random hE) fun v _ => DT.pure trivial

theorem lok (hE : c.E.Lawful) (hP : c.P.Lawful) (hc : Accepted c 10) :
    (algo : Algo c Nat Nat).LOk (only []) (TI c) JT JT c.popSize c.popSize 0 0 (c.popSize / 2 * 2 + c.popSize / 2 * 2) (c.popSize / 2 * 2 + c.popSize / 2 * 2) := by
  have hpop := hc.pop
  refine Algo.tagged_lok hE hP (by omega) (fun x h => h) fun ep _ _ => ?_
  unfold evolve
  dsimp only
  refine LT.bind0 LT.get fun s hs => ?_
  have hl : s.pop.length = c.popSize := hs.len
  refine LT.bind0 (LT.draw (DT.permutation hE)) fun order ho => ?_
  have hol : order.length = c.popSize := by rw [ho.length_eq, List.length_range]; exact hl
  refine LT.bind0 (LT.draw (DT.repMT fun i hi => ?_)) fun pop hp => ?_
  · refine DT.bind (DT.nth_mem hi) fun k hk => DT.mono (DT.nth_mem (by simpa using ho.mem_iff.1 hk)) fun _ _ => trivial
  have hpl : pop.length = c.popSize := by omega
  refine LT.bind0 (LT.setPop hpl) fun _ _ => LT.bind0 (LT.draw (DT.repMT fun i hi => ?_)) fun masks hm => ?_
  · refine DT.bind (R := fun _ => True) ?_ fun _ _ => DT.bind (R := fun _ => True) ?_ fun _ _ => DT.pure trivial
    all_goals
      unfold mask
      exact DT.bind (DT.permutation hE) fun _ _ => DT.bind (DT.random hE) fun _ _ => DT.pure trivial
  refine LT.bind (R := fun z : Race d K => Sizes c z.T z.KK) ?_ fun z hz => ?_
  · refine LT.mono (LT.iter (lo := 2) (hi := 2) (fun _ (z : Race d K) => Sizes c z.T z.KK ∧ z.ts < c.popSize / 2 ∧ z.tf < c.popSize / 2 ∧
      z.ks < c.popSize / 2 ∧ z.kf < c.popSize / 2) (c.popSize / 2) ?_ fun idx z hi hz => ?_) fun _ h => h.1
    · refine ⟨⟨?_, ?_⟩, ?_⟩
      · rw [getSorted_length hE.argsortLaw, List.length_take]; omega
      · rw [getSorted_length hE.argsortLaw, List.length_drop]; omega
      · dsimp only; omega
    · obtain ⟨⟨h1, h2⟩, h3, h4, h5, h6⟩ := hz
      refine LT.bind0 (LT.draw (DT.nth_mem (by omega))) fun m _ => ?_
      unfold race
      dsimp only
      refine LT.bind0 (LT.draw (R := fun _ => True) ?_) fun f _ => LT.bind0 (LT.draw DT.levy) fun lt _ => LT.bind0 (LT.draw DT.levy) fun lk _ =>
        LT.bind0 (LT.draw (dt_plan hE (by omega) h1 (by omega) h3 h4 h5 h6)) fun q hq => ?_
      · unfold factors; dgo
      refine LT.bind0 (LT.draw (DT.nth_mem (by omega))) fun x _ => LT.bind0 (LT.draw (DT.nth_mem (by omega))) fun y _ => ?_
      refine LT.bind (l1 := 1) (h1 := 1) (l2 := 1) (h2 := 1) (lt_contend hP (by omega)) fun T hT => ?_
      refine LT.bind0 (LT.draw (DT.nth_mem (by omega))) fun x _ => LT.bind0 (LT.draw (R := fun _ => True)
        (DT.ite (fun _ => DT.mono (DT.nth_mem (by omega)) fun _ _ => trivial) fun _ => DT.mono (DT.nth_mem (by omega)) fun _ _ => trivial)) fun y _ => ?_
      refine LT.bindL (lt_contend hP (by omega)) fun KK hK => LT.pure ⟨⟨?_, ?_⟩, hq.2.2.2⟩
      · exact hT.trans h1
      · exact hK.trans h2
  obtain ⟨h1, h2⟩ := hz
  refine LT.bind0 (LT.updateNoSave hE (by rw [List.length_append]; omega)) fun _ _ => LT.bind0 (LT.draw (DT.bestAgent hE (by omega))) fun bt _ =>
    LT.bind0 (LT.draw (DT.bestAgent hE (by omega))) fun bk _ => ?_
  refine LT.bindL (R := fun z : Stable d K => Sizes c z.T z.KK) ?_ fun z hz => LT.setPop ?_
  · refine LT.iter (lo := 2) (hi := 2) (fun _ (z : Stable d K) => Sizes c z.T z.KK) (c.popSize / 2) ⟨h1, h2⟩ fun idx z hi hz => ?_
    obtain ⟨h1, h2⟩ := hz
    unfold train
    dsimp only
    refine LT.bind0 (LT.draw (DT.nth_mem (by omega))) fun me _ => LT.bind0 (LT.draw (dt_lesson hE (by omega) (by omega))) fun v _ => LT.bind0 LT.poke fun _ _ => ?_
    have e1 : (z.rewrite me.ext v).T.length = z.T.length := by simp [Stable.rewrite]
    have e2 : (z.rewrite me.ext v).KK.length = z.KK.length := by simp [Stable.rewrite]
    refine LT.bind (l1 := 1) (h1 := 1) (l2 := 1) (h2 := 1) (lt_contend hP (by omega)) fun T hT => ?_
    have hT' : T.length = (z.rewrite me.ext v).T.length := hT
    refine LT.bind0 (LT.draw (DT.nth_mem (by show idx < T.length; omega))) fun me2 _ => LT.bind0 (LT.draw (dt_lesson hE (by omega)
      (by show _ ≤ (z.rewrite me.ext v).KK.length; omega))) fun v2 _ => LT.bind0 LT.poke fun _ _ => ?_
    have e3 : (Stable.rewrite { z.rewrite me.ext v with T := T } me2.ext v2).T.length = T.length := by simp [Stable.rewrite]
    have e4 : (Stable.rewrite { z.rewrite me.ext v with T := T } me2.ext v2).KK.length = (z.rewrite me.ext v).KK.length := by simp [Stable.rewrite]
    refine LT.bindL (lt_contend hP (by rw [e4]; omega)) fun KK hK => LT.pure ⟨?_, ?_⟩
    · exact e3.trans (hT.trans (e1.trans h1))
    · exact hK.trans (e4.trans (e2.trans h2))
  · show (z.T ++ z.KK).length = c.popSize
    rw [List.length_append, hz.1, hz.2]; omega

end OriginalTHRO

end Mealpy
