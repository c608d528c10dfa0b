import Verif.Alg.Kit11
import Verif.Alg.Alias

/-! # Simple optimizers, part 10

`CSO.py`, `MA.py`, `HGSO.py`, `DOA.py`, `CCO.py`, `TLO.py` (`ETLBO`, `ImprovedTLO`), `TPO.py`, `DO.py` -/

set_option linter.unusedSectionVars false
set_option linter.unusedVariables false

namespace Mealpy
open Spec

variable {d : Nat} {K : Type} [Num K] {c : Cfg d K}
namespace OriginalCSO

/-- the parameters (`mealpy/swarm_based/CSO.py:94-102`) -/
structure Params (K : Type) where
  mixture : K
  smp : Nat
  spc : Bool
  cdc : K
  srd : K
  c1 : K
  wMin : K
  wMax : K
  strategy : Nat

/-- the attributes of a cat (`mealpy/swarm_based/CSO.py:114-116`) -/
structure Att (d : Nat) (K : Type) where
  velocity : Vec d K
  flag : Bool

/-- `generate_empty_agent` (`mealpy/swarm_based/CSO.py:106-116`) -/
def mkExt (p : Params K) (_ : Vec d K) : D c (Att d K) := do
  let v ← uniformVec c.P.lb c.P.ub
  let u ← uniform 0 1
  pure ⟨v, decide (u < p.mixture)⟩

/-- one changed clone (`mealpy/swarm_based/CSO.py:125-132`); `int(cdc * n_dims)` does not exceed `n_dims` because `cdc < 1` -/
def clone (p : Params K) (a : Agent d K (Att d K)) : D c (Vec d K × Att d K) := do
  let keep ← subset d (Num.trunc (p.cdc * ♯d)).toNat
  let u ← randomVec
  let pos ← correct (fun j => if j.val ∈ keep then a.sol j
    else if u j < 0.5 then a.sol j * (1 + p.srd) else a.sol j * (1 - p.srd))
  let _ ← mkExt p pos
  pure (pos, a.ext)

/-- the selection among the candidates (`mealpy/swarm_based/CSO.py:138-151`) -/
def pickCat (p : Params K) (cats : List (Agent d K (Att d K))) : D c (Agent d K (Att d K)) :=
  if p.strategy = 0 then bestAgent cats
  else if p.strategy = 1 then do
    let is ← choice p.smp 4 false
    let four ← repM is.length (fun k => do
      let i ← nth is k
      nth cats i)
    bestAgent four
  else if p.strategy = 2 then do
    let i ← rouletteIdx (cats.map Agent.fit)
    nth cats i
  else do
    let i ← choice1 cats.length
    nth cats i

/-- `seeking_mode__` (`mealpy/swarm_based/CSO.py:118-152`). A new population of `smp` cats is always generated and evaluated; with `spc` it is
thrown away. In the pool modes the copy of the cat itself is evaluated again. -/
def seeking (p : Params K) (cat : Agent d K (Att d K)) : M c (Att d K) Unit (Vec d K) := do
  let gen ← liftB (generatePopulation (mkExt p) p.smp)
  if p.spc then do
    let pend ← draw (repM (p.smp - 1) (fun _ => clone p cat))
    if c.swarmLike then do
      let cats ← evalAll ((cat.sol, cat.ext) :: pend)
      let a ← draw (pickCat p cats)
      pure a.sol
    else do
      let new ← evalAll pend
      let a ← draw (pickCat p (cat :: new))
      pure a.sol
  else do
    let pend ← draw (repM p.smp (fun i => do
      let a ← nth gen i
      clone p a))
    let cats ← evalAll pend
    let a ← draw (pickCat p cats)
    pure a.sol

/-- one cat (`mealpy/swarm_based/CSO.py:163-173`) -/
def step (p : Params K) (ep : Nat) (i : Nat) : M c (Att d K) Unit (Vec d K × Att d K) := do
  let s ← get
  let x ← draw (nth s.pop i)
  let w : K := (♯c.epoch - ♯ep) / ♯c.epoch * (p.wMax - p.wMin) + p.wMin
  let pos ← (if x.ext.flag then do
      let u ← draw (uniform 0 1)
      draw (correct (fun j => x.sol j + w * x.ext.velocity j + u * p.c1 * (s.gbest.sol j - x.sol j)))
    else seeking p x : M c (Att d K) Unit (Vec d K))
  let v ← draw (uniform 0 1)
  pure (pos, ⟨x.ext.velocity, decide (v < p.mixture)⟩)

/-- `OriginalCSO.evolve` (`mealpy/swarm_based/CSO.py:154-177`) -/
def evolve (p : Params K) (ep : Nat) : M c (Att d K) Unit Unit := do
  let new ← buildEvalM c.popSize (step p ep)
  setPop new

theorem dt_mkExt {Er : Err → Prop} {p : Params K} {x : Vec d K} : DT Er (mkExt p x : D c _) (fun _ => True) := by
  unfold mkExt; dgo

macro_rules
  | `(tactic| dprim) => `(tactic| (at_head OriginalCSO.mkExt; exact OriginalCSO.dt_mkExt))

theorem dt_clone {Er : Err → Prop} (hE : c.E.Lawful) (hP : c.P.Lawful) (hd : 0 < d) {p : Params K} {a : Agent d K (Att d K)} :
    DT Er (clone p a : D c _) (fun q => Feas c q.1) := by
  unfold clone
  refine DT.bind (DT.subset hE hd) fun keep _ => DT.bind DT.randomVec fun u _ => DT.bind (DT.correct hP) fun pos hp => ?_
  exact DT.bind dt_mkExt fun _ _ => DT.pure hp

theorem dt_pickCat {Er : Err → Prop} (hE : c.E.Lawful) {p : Params K} (h2 : 2 ≤ p.smp) (h4 : p.strategy = 1 → 4 ≤ p.smp)
    {cats : List (Agent d K (Att d K))} (hl : cats.length = p.smp) : DT Er (pickCat p cats : D c _) (fun a => a ∈ cats) := by
  unfold pickCat
  refine DT.ite (fun _ => DT.mono (DT.bestAgent' hE (by omega)) fun _ h => h.1) fun _ => DT.ite (fun h1 => ?_) fun _ => DT.ite (fun _ => ?_) fun _ => ?_
  · have := h4 h1
    refine DT.bind (DT.choice hE (choiceErr_false (by omega) (by omega))) fun is his => ?_
    refine DT.bind (DT.repM (Q := fun a => a ∈ cats) fun k hk => DT.bind (DT.nth_mem hk) fun i hi => DT.nth_mem (by have := his.2.1 i hi; omega)) fun four hf => ?_
    exact DT.mono (DT.bestAgent' hE (by rw [hf.1, his.1]; omega)) fun a h => hf.2 a h.1
  · exact DT.bind (DT.rouletteIdx hE (by simp; omega)) fun i hi => DT.nth_mem (by simpa using hi)
  · exact DT.bind (DT.choice1 hE (by omega)) fun i hi => DT.nth_mem hi

theorem wt_seeking (hE : c.E.Lawful) (hP : c.P.Lawful) (hd : 0 < d) {p : Params K} (h2 : 2 ≤ p.smp) (h4 : p.strategy = 1 → 4 ≤ p.smp)
    {cat : Agent d K (Att d K)} (hcat : CF c cat) :
    WT noErr (Inv.std c (Att d K) JT) 0 (2 * p.smp) (seeking p cat : M c (Att d K) Unit _) (Feas c) := by
  unfold seeking
  refine WT.generatePopulation_std hE hP (fun x hx => dt_mkExt) (by omega) fun gen hg => WT.ite (fun _ => ?_) fun _ => ?_
  · refine WT.bind0 (WT.draw (DT.repM fun _ _ => dt_clone hE hP hd)) fun pend hp => WT.ite (fun _ => ?_) fun _ => ?_
    · refine WT.bindS (WT.evalAll hE ?_) (by simp; omega) fun cats hc => ?_
      · intro q hq
        rcases List.mem_cons.1 hq with rfl | g
        · exact Inv.std_mk hcat.2
        · exact Inv.std_mk (hp.2 q g)
      · refine WT.bind0 (WT.draw (dt_pickCat hE h2 h4 (by rw [hc.1]; simp; omega))) fun a ha => WT.weaken (WT.pure (hc.2 a ha).2) (by omega) (by omega)
    · refine WT.bindS (WT.evalAll hE fun q hq => Inv.std_mk (hp.2 q hq)) (by omega) fun new hn => ?_
      refine WT.bind0 (WT.draw (dt_pickCat hE h2 h4 (by simp [hn.1, hp.1]; omega))) fun a ha => WT.weaken (WT.pure ?_) (by omega) (by omega)
      rcases List.mem_cons.1 ha with rfl | g
      · exact hcat.2
      · exact (hn.2 a g).2
  · refine WT.bind0 (WT.draw (DT.repM (Q := fun q => Feas c q.1) fun i hi => DT.bind (DT.nth_mem (by omega)) fun a _ => dt_clone hE hP hd)) fun pend hp => ?_
    refine WT.bindS (WT.evalAll hE fun q hq => Inv.std_mk (hp.2 q hq)) (by omega) fun cats hc => ?_
    exact WT.bind0 (WT.draw (dt_pickCat hE h2 h4 (by rw [hc.1, hp.1]))) fun a ha => WT.weaken (WT.pure (hc.2 a ha).2) (by omega) (by omega)

theorem framed_seeking (hE : c.E.Lawful) {p : Params K} {cat : Agent d K (Att d K)} :
    Framed true (seeking p cat : M c (Att d K) Unit _) := by
  unfold seeking; framed

theorem framed_step (hE : c.E.Lawful) {p : Params K} {ep i : Nat} : Framed true (step p ep i : M c (Att d K) Unit _) := by
  unfold step
  refine .bind .get fun _ => .bind .draw fun _ => .bind (.ite ?_ (framed_seeking hE)) fun _ => ?_
  · framed
  · framed

macro_rules
  | `(tactic| fprim) => `(tactic| (at_last OriginalCSO.step; exact OriginalCSO.framed_step (by assumption)))

/-- `OriginalCSO` (`mealpy/swarm_based/CSO.py:13-177`) -/
def algo (p : Params K) : Algo c (Att d K) Unit := Algo.full false (mkExt p) (pure ()) (evolve p)

theorem wok (hE : c.E.Lawful) (hP : c.P.Lawful) (hc : Accepted c 5) (p : Params K) (hd : 0 < d) (h2 : 2 ≤ p.smp) (h4 : p.strategy = 1 → 4 ≤ p.smp) :
    (algo p : Algo c (Att d K) Unit).WOk noErr (Inv.std c (Att d K) JT) JT JT c.popSize c.popSize 0 0 c.popSize (c.popSize * (2 * p.smp + 1)) := by
  wfullalg hE hP hc evolve
  refine WT.bindS (WT.buildEvalM (lo := 0) (hi := 2 * p.smp) hE fun i hi => ?_) le_rfl fun new hn => WT.weaken (WT.setPop hn.1 hn.2) (by omega) (by omega)
  unfold step
  refine WT.bind0 WT.get fun s hs => ?_
  have hl : s.pop.length = c.popSize := hs.len
  refine WT.bind0 (WT.draw (DT.nth_mem (by omega))) fun x hx => WT.bindS (R := Feas c) (h1 := 2 * p.smp) (l1 := 0) (WT.ite (fun _ => ?_) fun _ => wt_seeking hE hP hd h2 h4 (hs.pop x hx)) (by omega) fun pos hpos => ?_
  · exact WT.bind0 (WT.draw DT.uniform') fun u _ => WT.weaken (WT.draw (DT.correct hP)) (by omega) (by omega)
  · exact WT.bind0 (WT.draw DT.uniform') fun v _ => WT.weaken (WT.pure (Inv.std_mk hpos)) (by omega) (by omega)

theorem framed (hE : c.E.Lawful) (p : Params K) (ep : Nat) : Framed true (evolve p ep : M c (Att d K) Unit Unit) := by
  unfold evolve; framed

end OriginalCSO

namespace OriginalMA

/-- the parameters (`mealpy/evolutionary_based/MA.py:81-85`); `pm` is never used by the code -/
structure Params (K : Type) where
  pc : K
  pLocal : K
  maxLocalGens : Nat
  bits : Nat

/-- `generate_empty_agent` (`mealpy/evolutionary_based/MA.py:92-96`): a random bit string of `bits_total` bits -/
def mkExt (p : Params K) (_ : Vec d K) : D c (List Bool) :=
  repM (d * p.bits) (fun _ => do
    let u ← uniform 0 1
    pure (decide (u < (0.5 : K))))

/-- `int(param, 2)` (`mealpy/evolutionary_based/MA.py:111`) -/
def bitsVal (l : List Bool) : Nat := l.foldl (fun n b => 2 * n + (if b then 1 else 0)) 0

/-- `decode__` (`mealpy/evolutionary_based/MA.py:98-112`) -/
def decode (c : Cfg d K) (p : Params K) (l : List Bool) : Vec d K := fun j =>
  c.P.lb j + (c.P.ub j - c.P.lb j) / (♯(2 ^ p.bits) - 1) * ♯(bitsVal ((l.drop (j.val * p.bits)).take p.bits))

/-- `crossover__` (`mealpy/evolutionary_based/MA.py:114-124`); every bit string has `bits_total` bits, so that indexing does not fail -/
def crossover (p : Params K) (dad mom : List Bool) : D c (List Bool) := do
  let u ← uniform 0 1
  if p.pc ≤ u then pure dad
  else repM (d * p.bits) (fun i => do
    let v ← uniform 0 1
    pure (if v < (0.5 : K) then dad.getD i false else mom.getD i false))

/-- `point_mutation__` (`mealpy/evolutionary_based/MA.py:126-133`): the rate is `pc`, not `pm` -/
def pointMutation (p : Params K) (l : List Bool) : D c (List Bool) :=
  repM l.length (fun i => do
    let u ← uniform 0 1
    pure (if u < p.pc then !(l.getD i false) else l.getD i false))

/-- decode, correct and make an agent (`mealpy/evolutionary_based/MA.py:140-144,183-187`) -/
def express (p : Params K) (l : List Bool) : D c (Vec d K × List Bool) := do
  let pos ← correct (decode c p l)
  let _ ← mkExt p pos
  pure (pos, l)

/-- one child (`mealpy/evolutionary_based/MA.py:179-187`): `children[idx + 1]` is read before the last index is treated -/
def child (p : Params K) (children : List (Agent d K (List Bool))) (i : Nat) : D c (Vec d K × List Bool) := do
  let a0 ← (if i % 2 = 0 then nth children (i + 1) else nth children (i - 1) : D c (Agent d K (List Bool)))
  let a ← (if i = c.popSize - 1 then nth children 0 else pure a0 : D c (Agent d K (List Bool)))
  let x ← nth children i
  let l ← crossover p x.ext a.ext
  let l2 ← pointMutation p l
  express p l2

/-- `bits_climber__` (`mealpy/evolutionary_based/MA.py:135-151`) -/
def climb (p : Params K) (a : Agent d K (List Bool)) : M c (List Bool) Unit (Agent d K (List Bool)) := do
  let pend ← draw (repM p.maxLocalGens (fun _ => do
    let l ← pointMutation p a.ext
    express p l))
  let new ← evalAll pend
  draw (bestAgent (new ++ [a]))

/-- `OriginalMA.evolve` (`mealpy/evolutionary_based/MA.py:165-195`) -/
def evolve (p : Params K) (ep : Nat) : M c (List Bool) Unit Unit := do
  let s ← get
  let children ← draw (repM c.popSize (fun _ => do
    let is ← kwayIdx s.pop (.count 2) 1 false
    let i ← nth is 0
    nth s.pop i))
  let new ← buildEval c.popSize (fun _ i => child p children i)
  setPop new
  iter c.popSize (fun i _ => do
    let u ← draw random
    if u < p.pLocal then do
      let a ← draw (nth new i)
      let b ← climb p a
      setAt i b
    else pure ()) ()

theorem dt_mkExt {Er : Err → Prop} {p : Params K} {x : Vec d K} : DT Er (mkExt p x : D c _) (fun _ => True) := by
  unfold mkExt
  exact DT.mono (DT.repMT fun _ _ => DT.bind DT.uniform' fun _ _ => DT.pure trivial) fun _ _ => trivial

macro_rules
  | `(tactic| dprim) => `(tactic| (at_head OriginalMA.mkExt; exact OriginalMA.dt_mkExt))

theorem dt_crossover {Er : Err → Prop} {p : Params K} {a b : List Bool} : DT Er (crossover p a b : D c _) (fun _ => True) := by
  unfold crossover
  exact DT.bind DT.uniform' fun _ _ => DT.ite (fun _ => DT.pure trivial) fun _ =>
    DT.mono (DT.repMT fun _ _ => DT.bind DT.uniform' fun _ _ => DT.pure trivial) fun _ _ => trivial

theorem dt_pointMutation {Er : Err → Prop} {p : Params K} {a : List Bool} : DT Er (pointMutation p a : D c _) (fun _ => True) := by
  unfold pointMutation
  exact DT.mono (DT.repMT fun _ _ => DT.bind DT.uniform' fun _ _ => DT.pure trivial) fun _ _ => trivial

theorem dt_express {Er : Err → Prop} (hP : c.P.Lawful) {p : Params K} {l : List Bool} : DT Er (express p l : D c _) (fun q => Feas c q.1) := by
  unfold express
  exact DT.bind (DT.correct hP) fun pos hp => DT.bind dt_mkExt fun _ _ => DT.pure hp

theorem dt_child {Er : Err → Prop} (hP : c.P.Lawful) {p : Params K} {ch : List (Agent d K (List Bool))} {i : Nat} (hl : ch.length = c.popSize)
    (he : c.popSize % 2 = 0) (hi : i < c.popSize) : DT Er (child p ch i : D c _) (fun q => Feas c q.1) := by
  unfold child
  refine DT.bind (R := fun _ => True) (DT.ite (fun h => DT.mono (DT.nth_mem (by omega)) fun _ _ => trivial) fun h => DT.mono (DT.nth_mem (by omega)) fun _ _ => trivial) fun a0 _ => ?_
  refine DT.bind (R := fun _ => True) (DT.ite (fun h => DT.mono (DT.nth_mem (by omega)) fun _ _ => trivial) fun h => DT.pure trivial) fun a _ => ?_
  refine DT.bind (DT.nth_mem (by omega)) fun x _ => DT.bind dt_crossover fun l _ => DT.bind dt_pointMutation fun l2 _ => dt_express hP

theorem wt_climb (hE : c.E.Lawful) (hP : c.P.Lawful) {p : Params K} {a : Agent d K (List Bool)} (ha : CF c a) :
    WT noErr (Inv.std c (List Bool) JT) p.maxLocalGens p.maxLocalGens (climb p a : M c (List Bool) Unit _) (CF c) := by
  unfold climb
  refine WT.bind0 (WT.draw (DT.repM (Q := fun q => Feas c q.1) fun _ _ => DT.bind dt_pointMutation fun l _ => dt_express hP)) fun pend hp => ?_
  refine WT.bindS (WT.evalAll hE fun q hq => Inv.std_mk (hp.2 q hq)) (by omega) fun new hn => ?_
  refine WT.mono (WT.weaken (WT.draw (DT.bestAgent' hE (by simp))) (by omega) (by omega)) fun b hb => ?_
  rcases List.mem_append.1 hb.1 with g | g
  · exact hn.2 b g
  · rw [List.mem_singleton.1 g]; exact ha

theorem framed_climb (hE : c.E.Lawful) {p : Params K} {a : Agent d K (List Bool)} : Framed true (climb p a : M c (List Bool) Unit _) := by
  unfold climb; framed

macro_rules
  | `(tactic| fprim) => `(tactic| (at_last OriginalMA.climb; exact OriginalMA.framed_climb (by assumption)))

/-- `OriginalMA` (`mealpy/evolutionary_based/MA.py:13-195`) -/
def algo (p : Params K) : Algo c (List Bool) Unit := Algo.full true (mkExt p) (pure ()) (evolve p)

theorem wok (hE : c.E.Lawful) (hP : c.P.Lawful) (hc : Accepted c 5) (p : Params K) (he : c.popSize % 2 = 0) :
    (algo p : Algo c (List Bool) Unit).WOk noErr (Inv.std c (List Bool) JT) JT JT c.popSize c.popSize 0 0 c.popSize (c.popSize + c.popSize * p.maxLocalGens) := by
  wfullalg hE hP hc evolve
  refine WT.bind0 WT.get fun s hs => ?_
  have hl : s.pop.length = c.popSize := hs.len
  refine WT.bind0 (WT.draw (DT.repM (Q := fun _ => True) fun k hk => ?_)) fun children hch => ?_
  · refine DT.bind (DT.kwayIdx hE (by omega) (by simp [KWay.size]) (by simp [KWay.size]; omega)) fun is his => DT.bind (DT.nth_mem (by rw [his.1]; simp [KWay.size])) fun i hi => ?_
    exact DT.mono (DT.nth_mem (his.2 i hi)) fun _ _ => trivial
  · refine WT.bindS (WT.buildEval hE fun s i hs hi => DT.mono (dt_child hP hch.1 he hi) fun _ h => Inv.std_mk h) (by omega) fun new hn => ?_
    refine WT.bind0 (WT.setPop hn.1 hn.2) fun _ _ => WT.iterU 0 p.maxLocalGens (by omega) (by omega) fun i hi => ?_
    refine WT.bind0 (WT.draw DT.random') fun u _ => WT.ite (fun _ => ?_) fun _ => WT.weaken (WT.pure trivial) (by omega) (by omega)
    refine WT.bind0 (WT.draw (DT.nth_mem (by omega))) fun a ha => WT.bindS (wt_climb hE hP (hn.2 a ha)) le_rfl fun b hb => ?_
    exact WT.weaken (WT.setAt (by wsz) (Inv.std_ag hb)) (by omega) (by omega)

theorem framed (hE : c.E.Lawful) (p : Params K) (ep : Nat) : Framed true (evolve p ep : M c (List Bool) Unit Unit) := by
  unfold evolve; framed

end OriginalMA

namespace OriginalHGSO

/-- the attributes (`mealpy/physics_based/HGSO.py:70-73`). `pop_group` and `p_best` are recomputed from the population at the end of
`initialization` and of every epoch, so that they are functions of the population. -/
structure Vars (K : Type) where
  h : K
  pij : K
  cj : K

/-- `initialize_variables` (`mealpy/physics_based/HGSO.py:70-74`) -/
def initVars : D c (Vars K) := do
  let a ← uniform 0 1
  let b ← uniform 0 1
  let e ← uniform 0 1
  pure ⟨5e-2 * a, 100 * b, 1e-2 * e⟩

/-- the factor of `H_j` (`mealpy/physics_based/HGSO.py:109`) -/
def factor (c : Cfg d K) (y : Vars K) (ep : Nat) : K :=
  Num.exp (-y.cj * (1 / Num.exp (-♯ep / ♯c.epoch) - 1 / 298.15))

/-- `H_j` after `k` updates -/
def henry (c : Cfg d K) (y : Vars K) (ep k : Nat) : K := (fun h => h * factor c y ep)^[k] y.h

/-- the cluster (`mealpy/physics_based/HGSO.py:79,146`) -/
def cluster (pop : List (Agent d K Unit)) (m idx : Nat) : List (Agent d K Unit) := (pop.drop (idx * m)).take m

/-- one gas (`mealpy/physics_based/HGSO.py:107-114`) -/
def move (ep m idx : Nat) (s : St c Unit (Vars K)) (j : Nat) : D c (Vec d K × Unit) := do
  let u ← uniform 0 1
  let f : K := if u < 0.5 then -1 else 1
  let sij : K := 1 * henry c s.ext ep (idx * m + j + 1) * s.ext.pij
  let x ← nth (cluster s.pop m idx) j
  let b ← bestAgent (cluster s.pop m idx)
  let gama : K := 1 * Num.exp (-((b.fit + 0.05) / (x.fit + 0.05)))
  let v ← uniform 0 1
  let w ← uniform 0 1
  let pos ← correct (fun k => x.sol k + f * v * gama * (b.sol k - x.sol k) + f * w * 1 * (sij * s.gbest.sol k - x.sol k))
  pure (pos, ())

/-- `OriginalHGSO.evolve` (`mealpy/physics_based/HGSO.py:95-147`); `N_w` is below `pop_size` because the factor is below 0.2. The agents replaced at
the end are the first of the ascending order of fitness, whatever `minmax` is. -/
def evolve (nClusters : Nat) (ep : Nat) : M c Unit (Vars K) Unit := do
  let m := c.popSize / nClusters
  let all ← iter nClusters (fun idx acc => do
    let new ← buildEval m (move ep m idx)
    pure (acc ++ new)) []
  setPop all
  modExt (fun y => { y with h := henry c y ep (nClusters * m + 1) })
  let u ← draw (uniform 0 0.1)
  let nw := min (Num.trunc (♯c.popSize * (u + 0.1))).toNat c.popSize
  let new ← buildEval nw (fun _ _ => do
    let x ← uniformVec c.P.lb c.P.ub
    let pos ← correct x
    pure (pos, ()))
  reshape (fun pop => overwrite pop ((c.E.argsort (pop.map Agent.fit)).zip new))

theorem dt_move {Er : Err → Prop} (hE : c.E.Lawful) (hP : c.P.Lawful) {ep m idx : Nat} {s : St c Unit (Vars K)} {j : Nat}
    (hj : j < m) (hm : (idx + 1) * m ≤ s.pop.length) : DT Er (move ep m idx s j : D c _) (fun q => Feas c q.1) := by
  have hl : (cluster s.pop m idx).length = m := by
    unfold cluster
    rw [List.length_take, List.length_drop]
    have : (idx + 1) * m = idx * m + m := by rw [Nat.add_mul, Nat.one_mul]
    omega
  unfold move
  refine DT.bind DT.uniform' fun u _ => DT.bind (DT.nth_mem (by omega)) fun x _ => DT.bind (DT.bestAgent' hE (by omega)) fun b _ => ?_
  exact DT.bind DT.uniform' fun v _ => DT.bind DT.uniform' fun w _ => DT.bind (DT.correct hP) fun pos hp => DT.pure hp

/-- `OriginalHGSO` (`mealpy/physics_based/HGSO.py:12-147`) -/
def algo (p : Nat) : Algo c Unit (Vars K) := Algo.full false (fun _ => pure ()) initVars (evolve p)

theorem wok (hE : c.E.Lawful) (hP : c.P.Lawful) (hc : Accepted c 5) (p : Nat) (hn : p * (c.popSize / p) = c.popSize) :
    (algo p : Algo c Unit (Vars K)).WOk noErr (Inv.std c Unit JT) JT JT c.popSize c.popSize 0 0 c.popSize (c.popSize + c.popSize) := by
  have hpop := hc.pop
  unfold algo
  refine Algo.full_wok hE hP (by omega) (fun x hx => by dgo) (J := JT) (by unfold initVars; dgo) (fun ep hep1 hep2 => ?_)
  unfold evolve
  refine WT.bindS (lo := c.popSize) (hi := c.popSize + c.popSize) (l1 := p * (c.popSize / p)) (h1 := p * (c.popSize / p)) (WT.iter (fun i (l : List (Agent d K Unit)) => l.length = i * (c.popSize / p) ∧ ∀ a ∈ l, CF c a) p (by simp) ?_) (by omega) fun all ha => ?_
  · rintro i l hi ⟨h1, h2⟩
    refine WT.bindS (WT.buildEval hE fun s j hs hj => DT.mono (dt_move hE hP hj ?_) fun _ h => Inv.std_mk h) le_rfl fun new hnew => ?_
    · have h3 : s.pop.length = c.popSize := hs.len
      rw [h3]
      exact le_trans (Nat.mul_le_mul_right _ hi) (le_of_eq hn)
    · refine WT.weaken (WT.pure ⟨by rw [List.length_append, h1, hnew.1, Nat.add_mul, Nat.one_mul], fun a ha => ?_⟩) (by omega) (by omega)
      rcases List.mem_append.1 ha with g | g
      · exact h2 a g
      · exact hnew.2 a g
  · rw [hn] at ha ⊢
    refine WT.bind0 (WT.setPop ha.1 fun a h => Inv.std_ag (ha.2 a h)) fun _ _ => WT.bind0 (WT.modExt fun _ _ => trivial) fun _ _ => ?_
    refine WT.bind0 (WT.draw DT.uniform') fun u _ => ?_
    refine WT.bindS (WT.buildEval hE fun s i hs hi => ?_) (by omega) fun new hnew => WT.weaken (WT.reshape fun pop h1 h2 => ⟨by rw [overwrite_length]; exact h1, fun a ha => ?_⟩) (by omega) (by omega)
    · exact DT.bind DT.uniformVec' fun x _ => DT.bind (DT.correct hP) fun pos hp => DT.pure (Inv.std_mk hp)
    · rcases overwrite_mem ha with g | ⟨q, g1, g2⟩
      · exact h2 a g
      · rw [g2]; exact hnew.2 _ (List.of_mem_zip g1).2

theorem framed (hE : c.E.Lawful) (p : Nat) (ep : Nat) : Framed true (evolve p ep : M c Unit (Vars K) Unit) := by
  unfold evolve; framed

end OriginalHGSO

namespace OriginalDOA

/-- the choice of a coordinate out of another agent (`mealpy/human_based/DOA.py:116-117,122-123`) -/
def borrow (s : St c Unit Unit) (idx j : Nat) : D c K := do
  let r ← pickWithout c.popSize [idx]
  let a ← nth s.pop r
  pure (a.sol.at j)

/-- a coordinate outside the box is replaced (`mealpy/human_based/DOA.py:114-119,144-149`) -/
def mend (s : St c Unit Unit) (idx j : Nat) (v : K) : D c K :=
  if v > c.P.ub.at j ∨ v < c.P.lb.at j then
    if 15 < d then borrow s idx j
    else do
      let u ← random
      pure (u * (c.P.ub.at j - c.P.lb.at j) + c.P.lb.at j)
  else pure v

/-- `⌈a / b⌉` -/
def ceilDiv (a b : Nat) : Nat := (a + b - 1) / b

/-- a candidate of the exploration phase (`mealpy/human_based/DOA.py:105-124`) -/
def dream (ep kk : Nat) (s : St c Unit Unit) (pbest : Agent d K Unit) (idx : Nat) : D c (Vec d K × Unit) := do
  let is ← choice d kk false
  let u ← random
  let cosTerm : K := (Num.cos ((♯ep + ♯c.epoch / 10) * Num.pi / ♯c.epoch) + 1) / 2
  let pos ← iter is.length (fun k pos => do
    let j ← nth is k
    if u < 0.9 then do
      let r ← random
      let v ← mend s idx j (pbest.sol.at j + (r * (c.P.ub.at j - c.P.lb.at j) + c.P.lb.at j) * cosTerm)
      pure (Vec.put pos j v)
    else do
      let v ← borrow s idx j
      pure (Vec.put pos j v)) pbest.sol
  let pos ← correct pos
  pure (pos, ())

/-- the exploration phase (`mealpy/human_based/DOA.py:92-125`); the group bounds `int(m / 5 * pop_size)` are computed exactly -/
def explore (ep : Nat) (s : St c Unit Unit) : D c (List (Vec d K × Unit)) :=
  iter 5 (fun m acc => do
    let kk ← integers (max 1 (ceilDiv d (8 * (m + 1))) : Nat) (ceilDiv d (3 * (m + 1)) + 1 : Nat)
    let start := m * c.popSize / 5
    let stop := (m + 1) * c.popSize / 5
    let pbest ← bestAgent ((s.pop.drop start).take (stop - start))
    let new ← repM (stop - start) (fun k => dream ep kk.toNat s pbest (start + k))
    pure (acc ++ new)) []

/-- a candidate of the exploitation phase (`mealpy/human_based/DOA.py:135-150`): the bounds are indexed by the number of the agent -/
def exploit (ep : Nat) (s : St c Unit Unit) (idx : Nat) : D c (Vec d K × Unit) := do
  let k ← integers 2 (max 2 (ceilDiv d 3) + 1 : Nat)
  let is ← choice d k.toNat false
  let cosTerm : K := (Num.cos (♯ep * Num.pi / ♯c.epoch) + 1) / 2
  let pos ← iter is.length (fun k pos => do
    let j ← nth is k
    let r ← random
    if idx < d then do
      let v ← mend s idx j (pos.at j + (r * (c.P.ub.at idx - c.P.lb.at idx) + c.P.lb.at idx) * cosTerm)
      pure (Vec.put pos j v)
    else dthrow .index) s.gbest.sol
  let pos ← correct pos
  pure (pos, ())

/-- `OriginalDOA.evolve` (`mealpy/human_based/DOA.py:80-157`) -/
def evolve (ep : Nat) : M c Unit Unit Unit := do
  let s ← get
  if ep ≤ 9 * c.epoch / 10 then do
    let pend ← draw (explore ep s)
    let new ← evalAll pend
    setPop new
  else do
    let pend ← draw (repM c.popSize (exploit ep s))
    let new ← evalAll pend
    setPop new

theorem dt_borrow {Er : Err → Prop} (hE : c.E.Lawful) {s : St c Unit Unit} {idx j : Nat} (hl : s.pop.length = c.popSize)
    (h2 : 2 ≤ c.popSize) : DT Er (borrow s idx j : D c K) (fun _ => True) := by
  unfold borrow
  exact DT.bind (DT.pickWithout hE (by simp; omega)) fun r hr => DT.bind (DT.nth_mem (by omega)) fun a _ => DT.pure trivial

theorem dt_mend {Er : Err → Prop} (hE : c.E.Lawful) {s : St c Unit Unit} {idx j : Nat} {v : K} (hl : s.pop.length = c.popSize)
    (h2 : 2 ≤ c.popSize) : DT Er (mend s idx j v : D c K) (fun _ => True) := by
  unfold mend
  exact DT.ite (fun _ => DT.ite (fun _ => dt_borrow hE hl h2) fun _ => DT.bind DT.random' fun _ _ => DT.pure trivial) fun _ => DT.pure trivial

theorem dt_dream {Er : Err → Prop} (hE : c.E.Lawful) (hP : c.P.Lawful) (hd : 0 < d) {ep kk : Nat} {s : St c Unit Unit} {b : Agent d K Unit}
    {idx : Nat} (hl : s.pop.length = c.popSize) (h2 : 2 ≤ c.popSize) (hk : kk ≤ d) : DT Er (dream ep kk s b idx : D c _) (fun q => Feas c q.1) := by
  unfold dream
  refine DT.bind (DT.choice hE (choiceErr_false hd hk)) fun is _ => DT.bind DT.random' fun u _ => ?_
  refine DT.bind (DT.iterT fun k pos hk => DT.bind (DT.nth_mem hk) fun j _ => DT.ite (fun _ => ?_) fun _ => ?_) fun pos _ => DT.bind (DT.correct hP) fun pos hp => DT.pure hp
  · exact DT.bind DT.random' fun r _ => DT.bind (dt_mend hE hl h2) fun v _ => DT.pure trivial
  · exact DT.bind (dt_borrow hE hl h2) fun v _ => DT.pure trivial

theorem ceilDiv_le {a b : Nat} (h : 0 < b) : ceilDiv a b ≤ a := by
  unfold ceilDiv
  rcases Nat.eq_zero_or_pos a with rfl | ha
  · rw [Nat.zero_add, Nat.div_eq_of_lt (by omega)]
  · rw [Nat.div_le_iff_le_mul_add_pred h]
    have := Nat.le_mul_of_pos_left a h
    omega

theorem ceilDiv_pos {a b : Nat} (ha : 0 < a) (h : 0 < b) : 0 < ceilDiv a b := by
  unfold ceilDiv
  exact Nat.div_pos (by omega) h

theorem ceilDiv_anti {a b b' : Nat} (h : 0 < b) (hb : b ≤ b') : ceilDiv a b' ≤ ceilDiv a b := by
  unfold ceilDiv
  rw [Nat.div_le_iff_le_mul_add_pred (by omega)]
  have h1 : a + b - 1 < b * ((a + b - 1) / b + 1) := by
    have := Nat.lt_mul_div_succ (a + b - 1) h
    exact this
  have h2 : b * ((a + b - 1) / b) ≤ b' * ((a + b - 1) / b) := Nat.mul_le_mul_right _ hb
  rw [Nat.mul_add, Nat.mul_one] at h1
  omega

theorem dt_explore {Er : Err → Prop} (hE : c.E.Lawful) (hP : c.P.Lawful) (hd : 0 < d) {ep : Nat} {s : St c Unit Unit}
    (hl : s.pop.length = c.popSize) (h5 : 5 ≤ c.popSize) :
    DT Er (explore ep s : D c _) (fun l => l.length = c.popSize ∧ ∀ q ∈ l, Feas c q.1) := by
  unfold explore
  refine DT.mono (DT.iter (fun i (l : List (Vec d K × Unit)) => l.length = i * c.popSize / 5 ∧ ∀ q ∈ l, Feas c q.1) 5 (by simp) ?_) fun l h => ⟨by rw [h.1]; omega, h.2⟩
  rintro m l hm ⟨h1, h2⟩
  have hc1 := ceilDiv_anti (a := d) (b := 3 * (m + 1)) (b' := 8 * (m + 1)) (by omega) (by omega)
  have hc2 := ceilDiv_le (a := d) (b := 3 * (m + 1)) (by omega)
  have hc3 := ceilDiv_pos (a := d) (b := 3 * (m + 1)) hd (by omega)
  refine DT.bind (DT.integers hE (by push_cast; omega)) fun kk hkk => ?_
  have hg : (m + 1) * c.popSize = m * c.popSize + c.popSize := by rw [Nat.add_mul, Nat.one_mul]
  have hg2 : m * c.popSize ≤ 4 * c.popSize := Nat.mul_le_mul_right _ (by omega)
  refine DT.bind (DT.bestAgent' hE (by rw [List.length_take, List.length_drop]; omega)) fun b _ => ?_
  refine DT.bind (DT.repM fun k hk => dt_dream hE hP hd hl (by omega) (by have := hkk.2; push_cast at this; omega)) fun new hn => DT.pure ⟨?_, fun q hq => ?_⟩
  · rw [List.length_append, h1, hn.1]; omega
  · rcases List.mem_append.1 hq with g | g
    · exact h2 q g
    · exact hn.2 q g

theorem dt_exploit {Er : Err → Prop} (hE : c.E.Lawful) (hP : c.P.Lawful) {ep : Nat} {s : St c Unit Unit} {idx : Nat}
    (hl : s.pop.length = c.popSize) (h2 : 2 ≤ c.popSize) (hd : 2 ≤ d) (hi : idx < d) : DT Er (exploit ep s idx : D c _) (fun q => Feas c q.1) := by
  have hc2 := ceilDiv_le (a := d) (b := 3) (by omega)
  unfold exploit
  refine DT.bind (DT.integers hE (by push_cast; omega)) fun k hk => ?_
  refine DT.bind (DT.choice hE (choiceErr_false (by omega) (by have := hk.2; push_cast at this; omega))) fun is _ => ?_
  refine DT.bind (DT.iterT fun k pos hk => DT.bind (DT.nth_mem hk) fun j _ => DT.bind DT.random' fun r _ => ?_) fun pos _ => DT.bind (DT.correct hP) fun pos hp => DT.pure hp
  rw [if_pos hi]
  exact DT.bind (dt_mend hE hl h2) fun v _ => DT.pure trivial

/-- `OriginalDOA` (`mealpy/human_based/DOA.py:12-157`) -/
def algo : Algo c Unit Unit := Algo.plain false evolve

theorem wok (hE : c.E.Lawful) (hP : c.P.Lawful) (hc : Accepted c 5) (hd : c.popSize ≤ d) :
    (algo : Algo c Unit Unit).WOk noErr (Inv.std c Unit JT) JT JT c.popSize c.popSize 0 0 c.popSize c.popSize := by
  wplainalg hE hP hc evolve
  refine WT.bind0 WT.get fun s hs => ?_
  have hl : s.pop.length = c.popSize := hs.len
  refine WT.ite (fun _ => ?_) fun _ => ?_
  · refine WT.bind0 (WT.draw (dt_explore hE hP (by omega) hl (by omega))) fun pend hp => ?_
    refine WT.bindS (WT.evalAll hE fun q hq => Inv.std_mk (hp.2 q hq)) (by omega) fun new hn => WT.weaken (WT.setPop (hn.1.trans hp.1) hn.2) (by omega) (by omega)
  · refine WT.bind0 (WT.draw (DT.repM fun i hi => dt_exploit hE hP hl (by omega) (by omega) (by omega))) fun pend hp => ?_
    refine WT.bindS (WT.evalAll hE fun q hq => Inv.std_mk (hp.2 q hq)) (by omega) fun new hn => WT.weaken (WT.setPop (hn.1.trans hp.1) hn.2) (by omega) (by omega)

theorem framed (hE : c.E.Lawful) (ep : Nat) : Framed true (evolve ep : M c Unit Unit Unit) := by
  unfold evolve; framed

end OriginalDOA

namespace OriginalCCO

/-- the parameters (`mealpy/swarm_based/CCO.py:86-87`) -/
structure Params (K : Type) where
  alpha : K
  beta : K

/-- the attributes (`mealpy/swarm_based/CCO.py:96-117`): the spiral, the counters and two constants of the run -/
structure Vars (K : Type) where
  x : List K
  y : List K
  s : Nat
  z : Nat
  tt : Nat
  dis : K
  lx : K

/-- `before_main_loop` (`mealpy/swarm_based/CCO.py:92-117`) -/
def before (p : Params K) (s : St c Unit (Vars K)) : D c (Vars K) := do
  let th : Nat → K := fun i => (1 - 10 * ♯(i + 1) / ♯c.popSize) * Num.pi
  let r : Nat → K := fun i => p.alpha * Num.exp (p.beta * th i / 3)
  let w := gWorst s
  let dis : K := Num.abs (meanAll (s.pop.map (fun a => fun j => (a.sol j - s.gbest.sol j) / (w.sol j - s.gbest.sol j + Num.EPSILON))))
  let n ← normal 0 1
  let u ← random
  pure ⟨(List.range c.popSize).map (fun i => r i * Num.cos (th i)), (List.range c.popSize).map (fun i => r i * Num.sin (th i)),
    0, 0, 0, dis, Num.abs n * u⟩

/-- what the candidate of one agent depends on (`mealpy/swarm_based/CCO.py:124-151`) -/
structure Ctx (d : Nat) (K : Type) where
  ep : Nat
  cc : K
  tt : K
  best : Vec d K
  worst : Vec d K
  f : K
  e : K
  r1v : Vec d K
  r1 : K
  r2 : K
  sv : Vec d K
  kk : List Nat
  idx : Nat
  x : Agent d K Unit
  j : K

/-- `D[A1]` (`mealpy/swarm_based/CCO.py:207-214`) -/
def leader (s : St c Unit (Vars K)) : D c (Bool × Vec d K) := do
  let l ← sortedPop s.pop
  let a2 ← integers 0 4
  let a1 ← integers 0 4
  let b0 ← nth l 0
  let b1 ← nth l 1
  let b2 ← nth l 2
  pure (decide (a2 = 3), if a1 = 0 then b0.sol else if a1 = 1 then b1.sol else if a1 = 2 then b2.sol else meanPos (s.pop.map Agent.sol))

/-- a random angle per dimension (`mealpy/swarm_based/CCO.py:215-216`) -/
def angles : D c (Vec d K) := vecM (fun _ => do
  let k ← choice1 360
  pure (♯(k + 1) * Num.pi / 360))

/-- the first move of the chase (`mealpy/swarm_based/CCO.py:158-165`) -/
def chase1 (k : Ctx d K) (s : St c Unit (Vars K)) : D c (Vec d K) := do
  let cy : K := 1 / (Num.pi * (1 + k.cc * k.cc))
  if s.ext.dis < k.j then pure (fun i => k.best i + k.f * k.sv i * (k.best i - k.x.sol i))
  else if s.ext.dis * s.ext.lx < k.j then
    pure (fun i => k.best i * (1 + Num.pow k.tt 5 * cy * k.e) + k.f * (k.sv i * (k.best i - k.x.sol i)))
  else do
    let n ← normal 0 (k.cc * k.cc)
    pure (fun i => k.best i * (1 + Num.pow k.tt 5 * n) + k.f * k.sv i * (k.best i - k.x.sol i))

/-- the second move (`mealpy/swarm_based/CCO.py:168-178`) -/
def chase2 (k : Ctx d K) (s : St c Unit (Vars K)) : D c (Vec d K) :=
  if (k.idx + 1) % 2 = 1 then do
    let r3 ← random
    let lf ← levyVec 1.5 0.05 (-1)
    pure (fun i => k.cc / ♯k.ep * (k.r1 * k.best i - r3 * k.x.sol i) + k.tt * k.tt * lf i * Num.abs (k.best i - k.e * k.x.sol i))
  else do
    let r2 ← randomVec
    let r3 ← randomVec
    let k0 ← nth k.kk 0
    let a ← nth s.pop k0
    let de : K := k.cc * k.f
    pure (fun i => 0.5 * (k.best i + a.sol i) + de * (2 * k.r1v i * (k.x.sol i - k.e * k.best i) - r2 i / 2 * (de * r3 i - 1)))

/-- the third move (`mealpy/swarm_based/CCO.py:181-205`); the partner is compared without `minmax` -/
def chase3 (k : Ctx d K) (s : St c Unit (Vars K)) : D c (Vec d K × Nat) := do
  let v ← (if k.j < s.ext.dis then do
      let m := meanPos (s.pop.map Agent.sol)
      let u ← random
      let w ← random
      pure (fun i => 2 * (u * (m i - k.x.sol i) + w * (k.best i - k.x.sol i)))
    else do
      let a0 ← nth k.kk 0
      let a1 ← nth k.kk 1
      let a2 ← nth k.kk 2
      let b0 ← nth s.pop a0
      let b1 ← nth s.pop a1
      let b2 ← nth s.pop a2
      let u ← random
      let w ← random
      pure (fun i => 2 * (u * (b1.sol i - b2.sol i) + w * (b0.sol i - k.x.sol i))) : D c (Vec d K))
  let q ← nth k.kk k.idx
  let y ← nth s.pop q
  let arr := if (k.idx + 1) % 2 = 1 then s.ext.y else s.ext.x
  let ar ← nth arr k.idx
  let src := if compareTarget k.x.tgt y.tgt .min then k.x.sol else y.sol
  let dst := if compareTarget k.x.tgt y.tgt .min then y.sol else k.x.sol
  let step : Vec d K := fun i => src i - k.e * dst i
  let pos : Vec d K := fun i => src i + k.tt * k.tt * ar * (1 - k.r1v i) * Num.abs (step i) + k.f * k.r1v i * step i / 2 + v i * k.j / ♯k.ep
  if 10 < s.ext.s + 1 then do
    let (p1, p2) ← choose2 c.popSize
    let a ← nth s.pop p1
    let b ← nth s.pop p2
    pure (fun i => Num.ufunc "round" (k.r1 * a.sol i + (1 - k.r1) * b.sol i) + k.f * k.r1 * k.r1v i / ♯(k.ep ^ 4) * pos i, 0)
  else pure (pos, s.ext.s + 1)

/-- the fourth move (`mealpy/swarm_based/CCO.py:207-231`) -/
def chase4 (k : Ctx d K) (s : St c Unit (Vars K)) : D c (Vec d K × Nat × Bool) := do
  let l ← leader s
  let rt1 ← angles
  let rt2 ← angles
  let w : K := 1 - (Num.exp (♯k.ep / ♯c.epoch) - 1) / (Num.exp 1 - 1) * ((Num.exp (♯k.ep / ♯c.epoch) - 1) / (Num.exp 1 - 1))
  let u ← random
  let b := l.2
  let pos : Vec d K := fun i =>
    if u < 0.33 then b i + 2 * w * k.f * Num.cos (rt1 i) * Num.sin (rt2 i) * (b i - k.x.sol i)
    else if u < 0.66 then b i + 2 * w * k.f * Num.sin (rt1 i) * Num.cos (rt2 i) * (b i - k.x.sol i)
    else b i + 2 * w * k.f * Num.cos (rt2 i) * (b i - k.x.sol i)
  if 5 < s.ext.z + 1 then do
    let r ← choice1 c.popSize
    let a ← nth s.pop r
    pure (fun i => k.best i * (1 - (1 - 1 / (a.sol i + Num.EPSILON)) * k.r1v i), 0, l.1)
  else pure (pos, s.ext.z + 1, l.1)

/-- the other half (`mealpy/swarm_based/CCO.py:233-246`) -/
def roam (k : Ctx d K) (s : St c Unit (Vars K)) : D c (Vec d K) := do
  let a0 ← nth k.kk 0
  let a1 ← nth k.kk 1
  let a2 ← nth k.kk 2
  let a3 ← nth k.kk 3
  let b0 ← nth s.pop a0
  let b1 ← nth s.pop a1
  let b2 ← nth s.pop a2
  let b3 ← nth s.pop a3
  let u ← random
  let pos ← (if k.cc < u then do
      let v ← random
      if k.cc < v then do
        let n ← normal 0 1
        pure (fun i => b2.sol i + Num.abs n * (k.best i - k.x.sol i + b0.sol i - b1.sol i))
      else do
        let m ← randomVec
        let t ← random
        let n ← normal 0 1
        pure (fun i => if m i < t then b2.sol i + Num.abs n * (b0.sol i - b1.sol i) else k.x.sol i)
    else do
      let v ← random
      let t ← random
      let n ← normal 0 1
      let q ← random
      pure (fun i => k.x.sol i + ((if v < t then 1 else 0) * Num.abs n * ((k.best i + b0.sol i) / 2 - b1.sol i) +
        q / 2 * (b2.sol i - b3.sol i))) : D c (Vec d K))
  let u ← random
  if k.cc < u ∨ 0.8 * ♯c.popSize < (♯s.ext.tt : K) then do
    let m ← randomVec
    pure (fun i => if m i < 0.2 * k.cc + 0.2 then pos i else k.x.sol i)
  else pure pos

/-- the restart (`mealpy/swarm_based/CCO.py:249-258`) -/
def renew (k : Ctx d K) (die : K) (pos : Vec d K) : D c (Vec d K) := do
  let u ← random
  if u < die then do
    let v ← random
    if k.cc < v then do
      let t ← random
      pure (fun i => t * (c.P.ub i - c.P.lb i) + c.P.lb i)
    else do
      let lf ← levy 1.5 0.05 (-1)
      let n ← normal 0 1
      let bv : Vec d K := fun i => k.best i * (lf * (if k.r2 < k.r1 then 1 else 0) + Num.abs n * (if k.r1 ≤ k.r2 then 1 else 0))
      let hi := maxL ((List.finRange d).map bv)
      let lo := minL ((List.finRange d).map bv)
      let t ← random
      pure (fun _ => t * (hi - lo) + lo)
  else pure pos

/-- the candidate of one agent (`mealpy/swarm_based/CCO.py:141-261`), with the counters `s` and `z` after it and the flag `Q` -/
def candidate (ep : Nat) (cc tt die : K) (best worst : Vec d K) (s : St c Unit (Vars K)) (idx : Nat) : D c (Vec d K × Nat × Nat × Bool) := do
  let x ← nth s.pop idx
  let f ← random
  let e ← random
  let r1v ← randomVec
  let r4 ← randomVec
  let r1 ← random
  let r2 ← random
  let kk ← permutation c.popSize
  let j : K := Num.abs (meanL ((List.finRange d).map (fun i => (x.sol i - best i) / (worst i - best i + Num.EPSILON))))
  let k : Ctx d K := ⟨ep, cc, tt, best, worst, Num.sign (0.5 - f), tt + e, r1v, r1, r2, fun i => Num.sin (Num.pi * r4 i * cc), kk, idx, x, j⟩
  let u ← random
  let q ← (if cc < u then do
      let u ← random
      if cc < u then do
        let pos ← chase1 k s
        pure (pos, s.ext.s, s.ext.z, false)
      else do
        let u ← random
        if cc < u then do
          let pos ← chase2 k s
          pure (pos, s.ext.s, s.ext.z, false)
        else do
          let u ← random
          let v ← random
          if u < v then do
            let r ← chase3 k s
            pure (r.1, r.2, s.ext.z, false)
          else do
            let r ← chase4 k s
            pure (r.1, s.ext.s, r.2.1, r.2.2)
    else do
      let pos ← roam k s
      pure (pos, s.ext.s, s.ext.z, false) : D c (Vec d K × Nat × Nat × Bool))
  let pos ← renew k die q.1
  let pos ← correct pos
  pure (pos, q.2)

/-- the replacement (`mealpy/swarm_based/CCO.py:265-273`): with `Q = 1` the new agent also takes the place of the worst -/
def accept (idx : Nat) (a x : Agent d K Unit) (q : Bool) : M c Unit (Vars K) Unit :=
  if compareTarget a.tgt x.tgt .min then do
    setAt idx a
    if q then do
      let t ← get
      let w ← draw (nth (getSorted c.E.argsort t.pop c.P.mm).2 (t.pop.length - 1))
      setAt w a
      modExt (fun y => { y with tt := 0 })
    else modExt (fun y => { y with tt := 0 })
  else modExt (fun y => { y with tt := y.tt + 1 })

/-- one agent (`mealpy/swarm_based/CCO.py:140-278`): compared without `minmax`; the best and the worst position are refreshed at the end -/
def step (ep : Nat) (cc tt die : K) (idx : Nat) (bw : Vec d K × Vec d K) : M c Unit (Vars K) (Vec d K × Vec d K) := do
  let s ← get
  let q ← draw (candidate ep cc tt die bw.1 bw.2 s idx)
  modExt (fun y => { y with s := q.2.1, z := q.2.2.1 })
  let a ← liftB (agentOf (fun _ => pure ()) q.1)
  let x ← draw (nth s.pop idx)
  accept idx a x q.2.2.2
  let t ← get
  let b ← draw (bestAgent t.pop)
  let w ← draw (worstAgent t.pop)
  pure (b.sol, w.sol)

/-- `OriginalCCO.evolve` (`mealpy/swarm_based/CCO.py:119-278`), one agent after the other in every mode -/
def evolve (p : Params K) (ep : Nat) : M c Unit (Vars K) Unit := do
  let s ← get
  let w ← draw (worstAgent s.pop)
  let tt : K := Num.pow (1 - Num.sin (Num.pi * ♯ep / (2 * ♯c.epoch))) (♯ep / ♯c.epoch)
  let cc : K := if s.ext.tt < 15 then 1 - ♯ep / ♯c.epoch else 0.8
  let die : K := if s.ext.tt < 15 then 0.02 * tt else 0.02
  let _ ← iter c.popSize (fun i bw => step ep cc tt die i bw) (s.gbest.sol, w.sol)
  pure ()

/-- the spiral has an entry per agent -/
def Ok (c : Cfg d K) (y : Vars K) : Prop := y.x.length = c.popSize ∧ y.y.length = c.popSize

theorem dt_before {Er : Err → Prop} {p : Params K} {s : St c Unit (Vars K)} : DT Er (before p s : D c _) (Ok c) := by
  unfold before
  exact DT.bind DT.normal fun n _ => DT.bind DT.random' fun u _ => DT.pure ⟨by simp, by simp⟩

/-- what is known of the context -/
structure Fit (c : Cfg d K) (k : Ctx d K) (s : St c Unit (Vars K)) : Prop where
  len : s.pop.length = c.popSize
  five : 5 ≤ c.popSize
  idx : k.idx < c.popSize
  kk : k.kk.length = c.popSize ∧ ∀ i ∈ k.kk, i < c.popSize
  ext : Ok c s.ext

theorem Fit.at_kk {Er : Err → Prop} {k : Ctx d K} {s : St c Unit (Vars K)} (h : Fit c k s) {i : Nat} (hi : i < 5) {α : Type} {f : Nat → D c α} {Q : α → Prop}
    (h' : ∀ q, q < s.pop.length → DT Er (f q) Q) : DT Er (nth k.kk i >>= f : D c α) Q := by
  have h1 := h.five
  have h2 := h.kk.1
  exact DT.bind (DT.nth_mem (by omega)) fun q hq => h' q (by rw [h.len]; exact h.kk.2 q hq)

variable {Er : Err → Prop} {k : Ctx d K} {s : St c Unit (Vars K)}

theorem dt_leader (hE : c.E.Lawful) (hl : 5 ≤ s.pop.length) : DT Er (leader s : D c _) (fun _ => True) := by
  unfold leader
  refine DT.bind (DT.sortedPop hE) fun l hl' => ?_
  have := hl'.1
  exact DT.bind (DT.integers hE (by omega)) fun _ _ => DT.bind (DT.integers hE (by omega)) fun _ _ => DT.bind (DT.nth_mem (by omega)) fun _ _ =>
    DT.bind (DT.nth_mem (by omega)) fun _ _ => DT.bind (DT.nth_mem (by omega)) fun _ _ => DT.pure trivial

theorem dt_angles (hE : c.E.Lawful) : DT Er (angles : D c (Vec d K)) (fun _ => True) := by
  unfold angles
  exact DT.vecMT fun _ => DT.bind (DT.choice1 hE (by omega)) fun _ _ => DT.pure trivial

theorem dt_chase1 : DT Er (chase1 k s : D c _) (fun _ => True) := by
  unfold chase1
  exact DT.ite (fun _ => DT.pure trivial) fun _ => DT.ite (fun _ => DT.pure trivial) fun _ => DT.bind DT.normal fun _ _ => DT.pure trivial

theorem dt_chase2 (h : Fit c k s) : DT Er (chase2 k s : D c _) (fun _ => True) := by
  unfold chase2
  refine DT.ite (fun _ => DT.bind DT.random' fun _ _ => DT.bind DT.levyVec fun _ _ => DT.pure trivial) fun _ => ?_
  exact DT.bind DT.randomVec fun _ _ => DT.bind DT.randomVec fun _ _ => h.at_kk (by omega) fun q hq => DT.bind (DT.nth_mem hq) fun _ _ => DT.pure trivial

theorem dt_chase3 (hE : c.E.Lawful) (h : Fit c k s) : DT Er (chase3 k s : D c _) (fun _ => True) := by
  have hlen := h.len
  have hidx := h.idx
  have h5 := h.five
  unfold chase3
  refine DT.bind (R := fun _ => True) (DT.ite (fun _ => DT.bind DT.random' fun _ _ => DT.bind DT.random' fun _ _ => DT.pure trivial) fun _ => ?_) fun v _ => ?_
  · refine h.at_kk (by omega) fun a0 h0 => h.at_kk (by omega) fun a1 h1 => h.at_kk (by omega) fun a2 h2 => ?_
    exact DT.bind (DT.nth_mem h0) fun _ _ => DT.bind (DT.nth_mem h1) fun _ _ => DT.bind (DT.nth_mem h2) fun _ _ =>
      DT.bind DT.random' fun _ _ => DT.bind DT.random' fun _ _ => DT.pure trivial
  · refine DT.bind (DT.nth_mem (by rw [h.kk.1]; exact h.idx)) fun q hq => DT.bind (DT.nth_mem (by rw [hlen]; exact h.kk.2 q hq)) fun y _ => ?_
    refine DT.bind (DT.nth_mem (by split <;> [rw [h.ext.2]; rw [h.ext.1]] <;> exact h.idx)) fun ar _ => ?_
    refine DT.ite (fun _ => DT.bind (DT.choose2 hE (by omega)) fun q hq => ?_) fun _ => DT.pure trivial
    obtain ⟨p1, p2⟩ := q
    exact DT.bind (DT.nth_mem (by rw [hlen]; exact hq.1)) fun _ _ => DT.bind (DT.nth_mem (by rw [hlen]; exact hq.2.1)) fun _ _ => DT.pure trivial

theorem dt_chase4 (hE : c.E.Lawful) (h : Fit c k s) : DT Er (chase4 k s : D c _) (fun _ => True) := by
  have hlen := h.len
  have h5 := h.five
  unfold chase4
  refine DT.bind (dt_leader hE (by omega)) fun l _ => DT.bind (dt_angles hE) fun _ _ => DT.bind (dt_angles hE) fun _ _ => DT.bind DT.random' fun _ _ => ?_
  exact DT.ite (fun _ => DT.bind (DT.choice1 hE (by omega)) fun r hr => DT.bind (DT.nth_mem (by omega)) fun _ _ => DT.pure trivial) fun _ => DT.pure trivial

theorem dt_roam (h : Fit c k s) : DT Er (roam k s : D c _) (fun _ => True) := by
  unfold roam
  refine h.at_kk (by omega) fun a0 h0 => h.at_kk (by omega) fun a1 h1 => h.at_kk (by omega) fun a2 h2 => h.at_kk (by omega) fun a3 h3 => ?_
  refine DT.bind (DT.nth_mem h0) fun _ _ => DT.bind (DT.nth_mem h1) fun _ _ => DT.bind (DT.nth_mem h2) fun _ _ => DT.bind (DT.nth_mem h3) fun _ _ => ?_
  refine DT.bind DT.random' fun u _ => DT.bind (R := fun _ => True) (DT.ite (fun _ => ?_) fun _ => ?_) fun pos _ => ?_
  · refine DT.bind DT.random' fun v _ => DT.ite (fun _ => DT.bind DT.normal fun _ _ => DT.pure trivial) fun _ => ?_
    exact DT.bind DT.randomVec fun _ _ => DT.bind DT.random' fun _ _ => DT.bind DT.normal fun _ _ => DT.pure trivial
  · exact DT.bind DT.random' fun _ _ => DT.bind DT.random' fun _ _ => DT.bind DT.normal fun _ _ => DT.bind DT.random' fun _ _ => DT.pure trivial
  · exact DT.bind DT.random' fun u _ => DT.ite (fun _ => DT.bind DT.randomVec fun _ _ => DT.pure trivial) fun _ => DT.pure trivial

theorem dt_renew {die : K} {pos : Vec d K} : DT Er (renew k die pos : D c _) (fun _ => True) := by
  unfold renew
  refine DT.bind DT.random' fun u _ => DT.ite (fun _ => DT.bind DT.random' fun v _ => DT.ite (fun _ => DT.bind DT.random' fun _ _ => DT.pure trivial) fun _ => ?_) fun _ => DT.pure trivial
  exact DT.bind DT.levy fun _ _ => DT.bind DT.normal fun _ _ => DT.bind DT.random' fun _ _ => DT.pure trivial

theorem dt_candidate (hE : c.E.Lawful) (hP : c.P.Lawful) (h5 : 5 ≤ c.popSize) {ep : Nat} {cc tt die : K} {best worst : Vec d K} {idx : Nat}
    (hl : s.pop.length = c.popSize) (hi : idx < c.popSize) (hx : Ok c s.ext) :
    DT Er (candidate ep cc tt die best worst s idx : D c _) (fun q => Feas c q.1) := by
  unfold candidate
  refine DT.bind (DT.nth_mem (by omega)) fun x _ => DT.bind DT.random' fun f _ => DT.bind DT.random' fun e _ => DT.bind DT.randomVec fun r1v _ => ?_
  refine DT.bind DT.randomVec fun r4 _ => DT.bind DT.random' fun r1 _ => DT.bind DT.random' fun r2 _ => DT.bind (DT.permutation' hE) fun kk hkk => ?_
  refine DT.bind DT.random' fun u _ => DT.bind (R := fun _ => True) (DT.ite (fun _ => ?_) fun _ => ?_) fun q _ => ?_
  · refine DT.bind DT.random' fun u _ => DT.ite (fun _ => DT.bind dt_chase1 fun _ _ => DT.pure trivial) fun _ => ?_
    refine DT.bind DT.random' fun u _ => DT.ite (fun _ => DT.bind (dt_chase2 ⟨hl, h5, hi, hkk, hx⟩) fun _ _ => DT.pure trivial) fun _ => ?_
    refine DT.bind DT.random' fun u _ => DT.bind DT.random' fun v _ => DT.ite (fun _ => ?_) fun _ => ?_
    · exact DT.bind (dt_chase3 hE ⟨hl, h5, hi, hkk, hx⟩) fun _ _ => DT.pure trivial
    · exact DT.bind (dt_chase4 hE ⟨hl, h5, hi, hkk, hx⟩) fun _ _ => DT.pure trivial
  · exact DT.bind (dt_roam ⟨hl, h5, hi, hkk, hx⟩) fun _ _ => DT.pure trivial
  · exact DT.bind dt_renew fun pos _ => DT.bind (DT.correct hP) fun pos hp => DT.pure hp

theorem sorted_last {Er : Err → Prop} (hE : c.E.Lawful) {pop : List (Agent d K Unit)} (h : 0 < pop.length) :
    DT Er (nth (getSorted c.E.argsort pop c.P.mm).2 (pop.length - 1) : D c Nat) (fun i => i < pop.length) := by
  have hp := sortedIdx_perm hE.argsortLaw pop c.P.mm
  have h2 : (getSorted c.E.argsort pop c.P.mm).2 = sortedIdx c.E.argsort pop c.P.mm := by rw [getSorted_eq]
  rw [h2]
  refine DT.mono (DT.nth_mem (by rw [hp.length_eq, List.length_range]; omega)) fun i hi => ?_
  exact List.mem_range.1 (hp.mem_iff.1 hi)

theorem wt_accept (hE : c.E.Lawful) {idx : Nat} (hi : idx < c.popSize) (h0 : 0 < c.popSize) {a x : Agent d K Unit} {q : Bool} (ha : CF c a) :
    WT noErr (Inv.std c Unit (Ok c)) 0 0 (accept idx a x q : M c Unit (Vars K) Unit) (fun _ => True) := by
  unfold accept
  refine WT.ite (fun _ => ?_) fun _ => WT.modExt fun _ h => h
  refine WT.bind0 (WT.setAt (by wsz) (Inv.std_ag ha)) fun _ _ => WT.ite (fun _ => ?_) fun _ => WT.modExt fun _ h => h
  refine WT.bind0 WT.get fun t ht => ?_
  have hl' : t.pop.length = c.popSize := ht.len
  exact WT.bind0 (WT.draw (sorted_last hE (by omega))) fun w hw => WT.bind0 (WT.setAt (by wsz) (Inv.std_ag ha)) fun _ _ => WT.modExt fun _ h => h

theorem wt_step (hE : c.E.Lawful) (hP : c.P.Lawful) (h5 : 5 ≤ c.popSize) {ep : Nat} {cc tt die : K} {idx : Nat} (hi : idx < c.popSize)
    {bw : Vec d K × Vec d K} :
    WT noErr (Inv.std c Unit (Ok c)) 1 1 (step ep cc tt die idx bw : M c Unit (Vars K) _) (fun _ => True) := by
  unfold step
  refine WT.bind0 WT.get fun s hs => ?_
  have hl : s.pop.length = c.popSize := hs.len
  refine WT.bind0 (WT.draw (dt_candidate hE hP h5 hl hi hs.ext)) fun q hq => WT.bind0 (WT.modExt fun _ h => h) fun _ _ => ?_
  refine WT.agentOf_std hq (DT.pure trivial) (by omega) fun a ha => WT.bind0 (WT.draw (DT.nth_mem (by omega))) fun x _ => ?_
  refine WT.bind0 (wt_accept hE hi (by omega) ha) fun _ _ => WT.bind0 WT.get fun t ht => ?_
  have hl' : t.pop.length = c.popSize := ht.len
  exact WT.bind0 (WT.draw (DT.bestAgent' hE (by omega))) fun _ _ => WT.bind0 (WT.draw (DT.worstAgent hE (by omega))) fun _ _ =>
    WT.weaken (WT.pure trivial) (by omega) (by omega)

theorem framed_accept (hE : c.E.Lawful) {idx : Nat} {a x : Agent d K Unit} {q : Bool} : Framed true (accept idx a x q : M c Unit (Vars K) Unit) := by
  unfold accept; framed

macro_rules
  | `(tactic| fprim) => `(tactic| (at_last OriginalCCO.accept; exact OriginalCCO.framed_accept (by assumption)))

theorem framed_step (hE : c.E.Lawful) {ep : Nat} {cc tt die : K} {idx : Nat} {bw : Vec d K × Vec d K} :
    Framed true (step ep cc tt die idx bw : M c Unit (Vars K) _) := by
  unfold step; framed

macro_rules
  | `(tactic| fprim) => `(tactic| (at_last OriginalCCO.step; exact OriginalCCO.framed_step (by assumption)))

/-- `OriginalCCO` (`mealpy/swarm_based/CCO.py:14-278`) -/
def algo (p : Params K) : Algo c Unit (Vars K) := Algo.pre false (fun _ => pure ()) (pure ⟨[], [], 0, 0, 0, 0, 0⟩) (before p) (evolve p)

theorem wok (hE : c.E.Lawful) (hP : c.P.Lawful) (hc : Accepted c 5) (p : Params K) :
    (algo p : Algo c Unit (Vars K)).WOk noErr (Inv.std c Unit (Ok c)) JT JT c.popSize c.popSize 0 0 c.popSize c.popSize := by
  have hpop := hc.pop
  unfold algo
  refine Algo.pre_wok (J := (Ok c)) hE hP (by omega) (fun x hx => by dgo) (by dgo) (by intro s hs; exact dt_before) (fun ep hep1 hep2 => ?_)
  unfold evolve
  refine WT.bind0 WT.get fun s hs => ?_
  have hl : s.pop.length = c.popSize := hs.len
  refine WT.bind0 (WT.draw (DT.worstAgent hE (by omega))) fun w _ => ?_
  refine WT.bindS (l1 := c.popSize * 1) (h1 := c.popSize * 1) (WT.iter (fun _ (_ : Vec d K × Vec d K) => True) c.popSize trivial fun i bw hi _ => wt_step hE hP (by omega) hi) (by omega) fun _ _ => ?_
  exact WT.weaken (WT.pure trivial) (by omega) (by omega)

theorem framed (hE : c.E.Lawful) (p : Params K) (ep : Nat) : Framed true (evolve p ep : M c Unit (Vars K) Unit) := by
  unfold evolve; framed

end OriginalCCO

namespace ETLBO

/-- a student of the teacher phase (`mealpy/human_based/TLO.py:76-83`); `np.round(1 + u)` is 1 below one half and 2 otherwise -/
def teach (teacher : Agent d K Unit) (mean : Vec d K) (s : St c Unit Unit) (i : Nat) : D c (Vec d K × Unit) := do
  let u ← random
  let tf : K := if u < 0.5 then 1 else 2
  let r ← randomVec
  let x ← nth s.pop i
  let pos ← correct (fun j => x.sol j + r j * (teacher.sol j - tf * mean j))
  pure (pos, ())

/-- a student of the learner phase (`mealpy/human_based/TLO.py:94-103`) -/
def learn (s : St c Unit Unit) (i : Nat) : D c (Vec d K × Unit) := do
  let q ← sample1 c.popSize i
  let r ← randomVec
  let x ← nth s.pop i
  let y ← nth s.pop q
  let pos ← correct (fun j => if compareTarget x.tgt y.tgt c.P.mm then x.sol j + r j * (x.sol j - y.sol j) else x.sol j + r j * (y.sol j - x.sol j))
  pure (pos, ())

/-- `ETLBO.evolve` (`mealpy/human_based/TLO.py:62-125`). The new positions of the duplicates, `lb + random * (ub - lb)`, are modelled as a uniform
draw from the box: in exact arithmetic they are in it. -/
def evolve (elite : Nat) (ep : Nat) : M c Unit Unit Unit := do
  let s ← get
  let elites := (getSorted c.E.argsort s.pop c.P.mm).1.take elite
  let teacher ← draw (bestAgent s.pop)
  greedyLoop c.popSize (teach teacher (meanPos (s.pop.map Agent.sol)))
  greedyLoop c.popSize learn
  reshape (putElites c elites)
  fillDups (uniformVec c.P.lb c.P.ub) ()

/-- `ETLBO` (`mealpy/human_based/TLO.py:13-125`) -/
def algo (p : Nat) : Algo c Unit Unit := Algo.plain false (evolve p)

theorem ok (hE : c.E.Lawful) (hP : c.P.Lawful) (hc : Accepted c 5) (p : Nat) (hn : p < c.popSize) :
    (algo p : Algo c Unit Unit).Ok (FA c) JT JT JT c.popSize (c.popSize + c.popSize) (c.popSize + c.popSize + c.popSize) := by
  plainalg hE hP hc evolve
  refine IT.pt (HJ.it (HJ.getHold (fun s => (getSorted c.E.argsort s.pop c.P.mm).1.take p) (fun s a ha => (getSorted_mem hE.argsortLaw).1 (List.mem_of_mem_take ha)) fun s hs => ?_))
  have hl : s.pop.length = c.popSize := hs.len
  refine HJ.bind0 (HJ.draw (DT.bestAgent' hE (by omega))) fun teacher _ => ?_
  refine HJ.bindS (HJ.ofIT (IT.greedyLoop hE fun s i hs hl hi => ?_)) (by omega) fun _ _ => HJ.bindS (HJ.ofIT (IT.greedyLoop hE fun s i hs hl hi => ?_)) (by omega) fun _ _ => ?_
  · unfold teach; dgo
  · unfold learn
    refine DT.bind (DT.sample1 hE (by omega) hi) fun q hq => DT.bind DT.randomVec fun r _ => DT.bind (DT.nth_mem (by omega)) fun x _ => DT.bind (DT.nth_mem (by omega)) fun y _ => ?_
    exact DT.bind (DT.correct hP) fun pos h => DT.pure ⟨h, h⟩
  · refine HJ.bind0 (HJ.reshape fun pop hpl => ?_) fun _ _ => HJ.weaken (HJ.fillDups (DT.mono (DT.uniformBox hE hP) fun x hx => ⟨hx, hx⟩)) (by omega) (by omega)
    obtain ⟨h1, h2, h3⟩ := putElites_ok hE (elites := (getSorted c.E.argsort s.pop c.P.mm).1.take p) (pop := pop) (by rw [List.length_take]; omega)
    exact ⟨by rw [h1]; exact hpl, fun a ha => (h2 a ha).imp id (fun h => by simpa using h), fun a ha => h3 a (ha.imp id (fun h => by simpa using h))⟩

theorem framed (hE : c.E.Lawful) (p : Nat) (ep : Nat) : Framed true (evolve p ep : M c Unit Unit Unit) := by
  unfold evolve; framed

end ETLBO

namespace ImprovedTLO

/-- the attributes (`mealpy/human_based/TLO.py:267-276`): a teacher and the team of each teacher -/
structure Vars (d : Nat) (K : Type) where
  teachers : List (Agent d K Unit)
  teams : List (List (Agent d K Unit))

/-- `n_students_in_team` (`mealpy/human_based/TLO.py:258-259`) -/
def teamSize (c : Cfg d K) (p : Nat) : Nat := (c.popSize - p) / p

/-- the teams (`mealpy/human_based/TLO.py:268-276`) -/
def group (c : Cfg d K) (p : Nat) (students : List (Agent d K Unit)) (perm : List Nat) (i : Nat) : D c (List (Agent d K Unit)) :=
  repM (teamSize c p) (fun j => do
    let k ← nth perm (i * teamSize c p + j)
    nth students k)

/-- `initialization` (`mealpy/human_based/TLO.py:262-276`) -/
def initialization (p : Nat) (_ : Vars d K) (start : Option (List (Agent d K Unit))) : B c (List (Agent d K Unit) × Vars d K) := do
  let pop ← startPop (fun _ => pure ()) start
  let sorted ← liftD (sortedPop pop)
  let perm ← liftD (permutation (c.popSize - p))
  let teams ← liftD (repM p (fun i => group c p (sorted.drop p) perm i))
  pure (pop, ⟨sorted.take p, teams⟩)

/-- a student of the first phase (`mealpy/human_based/TLO.py:290-303`): `id2` is a teacher's number used as the number of a student -/
def teach (p : Nat) (teacher : Agent d K Unit) (team : List (Agent d K Unit)) (i j : Nat) : D c (Vec d K × Unit) := do
  let student ← nth team j
  let tf : K := if teacher.fit = 0 then 1 else student.fit / teacher.fit
  let u ← random
  let id2 ← pickWithout p [i]
  let y ← nth team id2
  let mean := meanPos (team.map Agent.sol)
  let r ← random
  let pos ← correct (fun k => student.sol k + u * (teacher.sol k - tf * mean k) +
    r * (if compareTarget teacher.tgt y.tgt c.P.mm then y.sol k - student.sol k else student.sol k - y.sol k))
  pure (pos, ())

/-- a student of the second phase (`mealpy/human_based/TLO.py:316-326`); `ef` is `round(1 + u)`: 1 below one half and 2 otherwise -/
def learn (p : Nat) (ef : K) (teacher : Agent d K Unit) (team : List (Agent d K Unit)) (j : Nat) : D c (Vec d K × Unit) := do
  let student ← nth team j
  let id2 ← pickWithout (teamSize c p) [j]
  let y ← nth team id2
  let u ← random
  let r ← random
  let pos ← correct (fun k =>
    if compareTarget student.tgt y.tgt c.P.mm then student.sol k + u * (student.sol k - y.sol k) + r * (teacher.sol k - ef * y.sol k)
    else student.sol k + u * (y.sol k - student.sol k) + r * (teacher.sol k - ef * student.sol k))
  pure (pos, ())

/-- the better of each student and its new version (`mealpy/human_based/TLO.py:304-309,327-332`) -/
def select (team new : List (Agent d K Unit)) : List (Agent d K Unit) :=
  if c.swarmLike then zipGreedy c.P.mm team new else zipBetter c.P.mm new team

/-- a team in one of the first two phases (`mealpy/human_based/TLO.py:286-310,314-333`) -/
def session (p i : Nat) (mk : Agent d K Unit → List (Agent d K Unit) → Nat → D c (Vec d K × Unit)) : M c Unit (Vars d K) Unit := do
  let s ← get
  let teacher ← draw (nth s.ext.teachers i)
  let team ← draw (nth s.ext.teams i)
  let new ← buildEval team.length (fun _ j => mk teacher team j)
  modExt (fun y => { y with teams := y.teams.set i (select (c := c) team new) })

/-- the best of a team becomes its teacher (`mealpy/human_based/TLO.py:334-338`) -/
def promote (i : Nat) : M c Unit (Vars d K) Unit := do
  let s ← get
  let teacher ← draw (nth s.ext.teachers i)
  let team ← draw (nth s.ext.teams i)
  let l ← draw (sortedPop (team ++ [teacher]))
  let b ← draw (nth l 0)
  modExt (fun y => ⟨y.teachers.set i b, y.teams.set i (l.drop 1)⟩)

/-- `ImprovedTLO.evolve` (`mealpy/human_based/TLO.py:278-339`) -/
def evolve (p : Nat) (ep : Nat) : M c Unit (Vars d K) Unit := do
  iter p (fun i _ => session p i (fun teacher team j => teach p teacher team i j)) ()
  iter p (fun i _ => do
    let u ← draw random
    session p i (learn p (if u < 0.5 then 1 else 2))) ()
  iter p (fun i _ => promote i) ()
  let s ← get
  setPop (s.ext.teachers ++ s.ext.teams.flatten)

/-- `p` evaluated teachers and `p` full teams -/
def Ok (p : Nat) (c : Cfg d K) (y : Vars d K) : Prop :=
  (y.teachers.length = p ∧ ∀ a ∈ y.teachers, CF c a) ∧ y.teams.length = p ∧ ∀ t ∈ y.teams, t.length = teamSize c p ∧ ∀ a ∈ t, CF c a

theorem dt_teach {Er : Err → Prop} (hE : c.E.Lawful) (hP : c.P.Lawful) {p : Nat} (h2 : 2 ≤ p) {teacher : Agent d K Unit} {team : List (Agent d K Unit)} {i j : Nat}
    (hp : p ≤ team.length) (hj : j < team.length) : DT Er (teach p teacher team i j : D c _) (fun q => Feas c q.1) := by
  unfold teach
  refine DT.bind (DT.nth_mem hj) fun x _ => DT.bind DT.random' fun u _ => DT.bind (DT.pickWithout hE (by simp; omega)) fun k hk => ?_
  exact DT.bind (DT.nth_mem (by omega)) fun y _ => DT.bind DT.random' fun r _ => DT.bind (DT.correct hP) fun pos h => DT.pure h

theorem dt_learn {Er : Err → Prop} (hE : c.E.Lawful) (hP : c.P.Lawful) {p : Nat} (h2 : 2 ≤ teamSize c p) {ef : K} {teacher : Agent d K Unit}
    {team : List (Agent d K Unit)} {j : Nat} (hl : team.length = teamSize c p) (hj : j < team.length) :
    DT Er (learn p ef teacher team j : D c _) (fun q => Feas c q.1) := by
  unfold learn
  refine DT.bind (DT.nth_mem hj) fun x _ => DT.bind (DT.pickWithout hE (by simp; omega)) fun k hk => DT.bind (DT.nth_mem (by omega)) fun y _ => ?_
  exact DT.bind DT.random' fun u _ => DT.bind DT.random' fun r _ => DT.bind (DT.correct hP) fun pos h => DT.pure h

theorem select_ok {team new : List (Agent d K Unit)} (hl : new.length = team.length) (h1 : ∀ a ∈ team, CF c a) (h2 : ∀ a ∈ new, CF c a) :
    (select (c := c) team new).length = team.length ∧ ∀ a ∈ select (c := c) team new, CF c a := by
  unfold select
  split
  · exact ⟨by rw [zipGreedy_length]; omega, zipGreedy_all h1 h2⟩
  · exact ⟨by rw [zipBetter_length]; omega, zipBetter_all h2 h1⟩

theorem Ok.setTeam {p : Nat} {y : Vars d K} (h : Ok p c y) {i : Nat} {t : List (Agent d K Unit)} (ht : t.length = teamSize c p ∧ ∀ a ∈ t, CF c a) :
    Ok p c { y with teams := y.teams.set i t } := by
  refine ⟨h.1, by simpa using h.2.1, fun t' ht' => ?_⟩
  rcases List.mem_or_eq_of_mem_set ht' with g | g
  · exact h.2.2 t' g
  · rw [g]; exact ht

theorem Ok.setTeacher {p : Nat} {y : Vars d K} (h : Ok p c y) {i : Nat} {a : Agent d K Unit} (ha : CF c a) :
    Ok p c { y with teachers := y.teachers.set i a } := by
  refine ⟨⟨by simpa using h.1.1, fun b hb => ?_⟩, h.2⟩
  rcases List.mem_or_eq_of_mem_set hb with g | g
  · exact h.1.2 b g
  · rw [g]; exact ha

theorem wt_session (hE : c.E.Lawful) {p i : Nat} (hi : i < p) {mk : Agent d K Unit → List (Agent d K Unit) → Nat → D c (Vec d K × Unit)}
    (hmk : ∀ teacher team j, team.length = teamSize c p → j < team.length → DT noErr (mk teacher team j : D c _) (fun q => Feas c q.1)) :
    WT noErr (Inv.std c Unit (Ok p c)) (teamSize c p) (teamSize c p) (session p i mk : M c Unit (Vars d K) Unit) (fun _ => True) := by
  unfold session
  refine WT.bind0 WT.get fun s hs => ?_
  have hx : Ok p c s.ext := hs.ext
  refine WT.bind0 (WT.draw (DT.nth_mem (by rw [hx.1.1]; exact hi))) fun teacher _ => WT.bind0 (WT.draw (DT.nth_mem (by rw [hx.2.1]; exact hi))) fun team ht => ?_
  have ht' := hx.2.2 team ht
  refine WT.bindS (l1 := team.length) (h1 := team.length) (WT.buildEval hE fun s j _ hj => DT.mono (hmk teacher team j ht'.1 hj) fun q hq => Inv.std_mk hq) (by omega) fun new hn => ?_
  refine WT.weaken (WT.modExt fun y hy => Ok.setTeam hy ?_) (by omega) (by omega)
  have := select_ok (c := c) hn.1 ht'.2 hn.2
  exact ⟨by rw [this.1]; exact ht'.1, this.2⟩

theorem wt_promote (hE : c.E.Lawful) {p i : Nat} (hi : i < p) :
    WT noErr (Inv.std c Unit (Ok p c)) 0 0 (promote i : M c Unit (Vars d K) Unit) (fun _ => True) := by
  unfold promote
  refine WT.bind0 WT.get fun s hs => ?_
  have hx : Ok p c s.ext := hs.ext
  refine WT.bind0 (WT.draw (DT.nth_mem (by rw [hx.1.1]; exact hi))) fun teacher hte => WT.bind0 (WT.draw (DT.nth_mem (by rw [hx.2.1]; exact hi))) fun team ht => ?_
  have ht' := hx.2.2 team ht
  refine WT.bind0 (WT.draw (DT.sortedPop hE)) fun l hl => ?_
  have hll : l.length = teamSize c p + 1 := by rw [hl.1, List.length_append, ht'.1]; rfl
  have hcf : ∀ a ∈ l, CF c a := by
    intro a ha
    rcases List.mem_append.1 ((hl.2 a).1 ha) with g | g
    · exact ht'.2 a g
    · rw [List.mem_singleton.1 g]; exact hx.1.2 _ hte
  refine WT.bind0 (WT.draw (DT.nth_mem (by omega))) fun b hb => WT.modExt fun y hy => ?_
  exact Ok.setTeacher (Ok.setTeam hy ⟨by rw [List.length_drop, hll]; rfl, fun a ha => hcf a (List.mem_of_mem_drop ha)⟩) (hcf b hb)

theorem flat_length {α : Type} {l : List (List α)} {k : Nat} (h : ∀ t ∈ l, t.length = k) : l.flatten.length = l.length * k := by
  induction l with
  | nil => simp
  | cons t l ih => rw [List.flatten_cons, List.length_append, ih fun t ht => h t (by simp [ht]), h t (by simp), List.length_cons, Nat.succ_mul, Nat.add_comm]

theorem size_eq {p : Nat} (h0 : 0 < p) (hd : p ∣ c.popSize) (hp : 0 < c.popSize) : p + p * teamSize c p = c.popSize := by
  obtain ⟨k, hk⟩ := hd
  unfold teamSize
  cases k with
  | zero => omega
  | succ k => rw [hk, Nat.mul_succ, Nat.add_sub_cancel, Nat.mul_div_cancel_left _ h0, Nat.add_comm]

theorem team_le {p : Nat} (h0 : 0 < p) (hs : (p + 1) * (p + 1) ≤ c.popSize) : p ≤ teamSize c p := by
  unfold teamSize
  rw [Nat.le_div_iff_mul_le h0]
  have : (p + 1) * (p + 1) = p * p + 2 * p + 1 := by ring
  omega

theorem bt_rest {Er : Err → Prop} (hE : c.E.Lawful) {p : Nat} (h0 : 0 < p) (hd : p ∣ c.popSize) (hp : 0 < c.popSize)
    {pop : List (Agent d K Unit)} (hl : pop.length = c.popSize) (hc : ∀ a ∈ pop, CF c a) :
    BT Er 0 0 (do
      let sorted ← liftD (sortedPop pop)
      let perm ← liftD (permutation (c.popSize - p))
      let teams ← liftD (repM p (fun i => group c p (sorted.drop p) perm i))
      pure (pop, (⟨sorted.take p, teams⟩ : Vars d K)) : B c _) (fun r => r.1.length = c.popSize ∧ (∀ a ∈ r.1, CF c a) ∧ Ok p c r.2) := by
  have hsz := size_eq (c := c) h0 hd hp
  refine BT.bind0 (BT.liftD (DT.sortedPop hE)) fun l hl' => BT.bind0 (BT.liftD (DT.permutation' hE)) fun perm hperm => ?_
  have hcl : ∀ a ∈ l, CF c a := fun a ha => hc a ((hl'.2 a).1 ha)
  refine BT.bind0 (R := fun ts => ts.length = p ∧ ∀ t ∈ ts, t.length = teamSize c p ∧ ∀ a ∈ t, CF c a) (BT.liftD (DT.repM fun i hi => ?_)) fun ts hts => ?_
  · unfold group
    refine DT.repM fun j hj => ?_
    have hlt : i * teamSize c p + j < p * teamSize c p := by
      have : (i + 1) * teamSize c p ≤ p * teamSize c p := Nat.mul_le_mul_right _ hi
      rw [Nat.add_mul, Nat.one_mul] at this
      omega
    refine DT.bind (DT.nth_mem (by rw [hperm.1]; omega)) fun k hk => ?_
    have := hperm.2 k hk
    exact DT.mono (DT.nth_mem (by rw [List.length_drop]; omega)) fun a ha => hcl a (List.mem_of_mem_drop ha)
  · exact BT.pure ⟨hl, hc, ⟨by rw [List.length_take]; omega, fun a ha => hcl a (List.mem_of_mem_take ha)⟩, hts.1, hts.2⟩

theorem bt_none (hE : c.E.Lawful) (hP : c.P.Lawful) {p : Nat} (h0 : 0 < p) (hd : p ∣ c.popSize) (hp : 0 < c.popSize) {y : Vars d K} :
    BT noErr c.popSize c.popSize (initialization p y none : B c _) (fun r => r.1.length = c.popSize ∧ (∀ a ∈ r.1, CF c a) ∧ Ok p c r.2) := by
  unfold initialization startPop
  exact BT.bindS (BT.generatePopulation hE hP fun x _ => DT.pure trivial) le_rfl fun pop hpop =>
    BT.weaken (bt_rest hE h0 hd hp hpop.1 hpop.2) (by omega) (by omega)

theorem bt_some (hE : c.E.Lawful) {p : Nat} (h0 : 0 < p) (hd : p ∣ c.popSize) (hp : 0 < c.popSize) {y : Vars d K} {pop : List (Agent d K Unit)}
    (hl : pop.length = c.popSize) (hc : ∀ a ∈ pop, CF c a) :
    BT noErr (c.popSize - c.popSize) (c.popSize - c.popSize) (initialization p y (some pop) : B c _)
      (fun r => r.1.length = c.popSize ∧ (∀ a ∈ r.1, CF c a) ∧ Ok p c r.2) := by
  unfold initialization startPop
  rw [pure_bind]
  exact BT.weaken (bt_rest hE h0 hd hp hl hc) (by omega) (by omega)

theorem framed_session (hE : c.E.Lawful) {p i : Nat} {mk : Agent d K Unit → List (Agent d K Unit) → Nat → D c (Vec d K × Unit)} :
    Framed true (session p i mk : M c Unit (Vars d K) Unit) := by
  unfold session; framed

theorem framed_promote (hE : c.E.Lawful) {i : Nat} : Framed true (promote i : M c Unit (Vars d K) Unit) := by
  unfold promote; framed

macro_rules
  | `(tactic| fprim) => `(tactic| (at_last ImprovedTLO.session; exact ImprovedTLO.framed_session (by assumption)))

macro_rules
  | `(tactic| fprim) => `(tactic| (at_last ImprovedTLO.promote; exact ImprovedTLO.framed_promote (by assumption)))

/-- `ImprovedTLO` (`mealpy/human_based/TLO.py:207-339`) -/
def algo (p : Nat) : Algo c Unit (Vars d K) := Algo.custom false (fun _ => pure ()) (pure ⟨[], []⟩) (initialization p) (evolve p)

theorem wok (hE : c.E.Lawful) (hP : c.P.Lawful) (hc : Accepted c 5) (p : Nat) (h0 : 2 ≤ p) (h1 : p ∣ c.popSize) (h2 : (p + 1) * (p + 1) ≤ c.popSize) :
    (algo p : Algo c Unit (Vars d K)).WOk noErr (Inv.std c Unit (Ok p c)) JT (Ok p c) c.popSize c.popSize 0 0 (c.popSize - p + (c.popSize - p)) (c.popSize - p + (c.popSize - p)) := by
  have hpop := hc.pop
  unfold algo
  refine Algo.custom_wok (J := (Ok p c)) (J0 := JT) (by omega) (fun x hx => by dgo) (by dgo) (by omega) (fun y hy => bt_none hE hP (by omega) h1 (by omega)) (fun y pop hy hl hp => bt_some hE (by omega) h1 (by omega) hl hp) (fun ep hep1 hep2 => ?_)
  unfold evolve
  have hsz := size_eq (c := c) (by omega) h1 (by omega)
  have htl := team_le (c := c) (by omega) h2
  refine WT.bindS (l1 := p * teamSize c p) (h1 := p * teamSize c p) (WT.iterU (teamSize c p) (teamSize c p) le_rfl le_rfl fun i hi => wt_session hE hi fun teacher team j h3 h4 => dt_teach hE hP h0 (by omega) h4) (by omega) fun _ _ => ?_
  refine WT.bindS (l1 := p * teamSize c p) (h1 := p * teamSize c p) (WT.iterU (teamSize c p) (teamSize c p) le_rfl le_rfl fun i hi => WT.bind0 (WT.draw DT.random') fun u _ => wt_session hE hi fun teacher team j h3 h4 => dt_learn hE hP (by omega) h3 h4) (by omega) fun _ _ => ?_
  refine WT.bindS (l1 := 0) (h1 := 0) (WT.iterU 0 0 (by omega) (by omega) fun i hi => wt_promote hE hi) (by omega) fun _ _ => ?_
  refine WT.bind0 WT.get fun s hs => ?_
  have hx : Ok p c s.ext := hs.ext
  refine WT.weaken (WT.setPop ?_ fun a ha => Inv.std_ag ?_) (by omega) (by omega)
  · show _ = c.popSize
    rw [List.length_append, flat_length fun t ht => (hx.2.2 t ht).1, hx.1.1, hx.2.1]; exact hsz
  · rcases List.mem_append.1 ha with g | g
    · exact hx.1.2 a g
    · obtain ⟨t, g1, g2⟩ := List.mem_flatten.1 g
      exact (hx.2.2 t g1).2 a g2

theorem framed (hE : c.E.Lawful) (p : Nat) (ep : Nat) : Framed true (evolve p ep : M c Unit (Vars d K) Unit) := by
  unfold evolve; framed

end ImprovedTLO

namespace DevTPO

/-- the parameters (`mealpy/bio_based/TPO.py:80-82`) -/
structure Params (K : Type) where
  alpha : K
  beta : K
  theta : K

/-- the attributes (`mealpy/bio_based/TPO.py:90-101`) -/
structure Vars (d : Nat) (K : Type) where
  theta : K
  roots : List (Vec d K)
  total : List (List (Agent d K Unit))

/-- `n_leafs = int(np.sqrt(self.pop_size) + 1)` (`mealpy/bio_based/TPO.py:90`) -/
def leafs (c : Cfg d K) : Nat := Nat.sqrt c.popSize + 1

/-- `initialize_variables` (`mealpy/bio_based/TPO.py:86-92`) -/
def initVars (p : Params K) : D c (Vars d K) := do
  let roots ← repM (leafs c) (fun _ => uniformVec (fun _ => 0) (fun _ => 1))
  pure ⟨p.theta, roots, []⟩

/-- one branch (`mealpy/bio_based/TPO.py:98-101`) -/
def branch (acc : List (Agent d K Unit) × List (List (Agent d K Unit))) : B c (List (Agent d K Unit) × List (List (Agent d K Unit))) := do
  let l ← generatePopulation (fun _ => pure ()) (leafs c)
  let b ← liftD (bestAgent l)
  pure (acc.1 ++ [b], acc.2 ++ [l])

/-- `initialization` (`mealpy/bio_based/TPO.py:94-101`): a population built from `starting_solutions` is thrown away -/
def initialization (y : Vars d K) (_ : Option (List (Agent d K Unit))) : B c (List (Agent d K Unit) × Vars d K) := do
  let r ← iter c.popSize (fun _ acc => branch acc) ([], [])
  pure (r.1, { y with total := r.2 })

/-- the new roots (`mealpy/bio_based/TPO.py:111-114`) -/
def grow (p : Params K) (s : St c Unit (Vars d K)) (ls : List (Agent d K Unit)) : D c (List (Vec d K)) :=
  repM (leafs c) (fun j => do
    let r ← nth s.ext.roots j
    let a ← nth ls j
    let u ← uniformVec (fun _ => -0.5) (fun _ => 0.5)
    pure (fun k => r k + p.alpha * (s.ext.theta * s.gbest.sol k - a.sol k) * u k))

/-- the new leaf (`mealpy/bio_based/TPO.py:115-119`) -/
def leaf (p : Params K) (s : St c Unit (Vars d K)) (roots : List (Vec d K)) (j : Nat) : D c (Vec d K × Unit) := do
  let o ← nth s.ext.roots j
  let r ← nth roots j
  let pos ← correct (fun k => s.gbest.sol k + p.beta * (s.ext.theta * (r k - o k)))
  pure (pos, ())

/-- the better of each new leaf and the old one (`mealpy/bio_based/TPO.py:122-127`): at a tie both modes treat the new one as the first argument -/
def select (new old : List (Agent d K Unit)) : List (Agent d K Unit) :=
  if c.swarmLike then zipGreedy c.P.mm new old else zipBetter c.P.mm new old

/-- a branch of an epoch (`mealpy/bio_based/TPO.py:110-127`) -/
def branchStep (p : Params K) (i : Nat) : M c Unit (Vars d K) Unit := do
  let s ← get
  let ls ← draw (nth s.ext.total i)
  let roots ← draw (grow p s ls)
  let new ← buildEval (leafs c) (fun _ j => leaf p s roots j)
  modExt (fun y => { y with roots := roots, total := y.total.set i (select (c := c) new ls) })

/-- the best leaf of a branch (`mealpy/bio_based/TPO.py:130-131`) -/
def top (i : Nat) : M c Unit (Vars d K) Unit := do
  let s ← get
  let ls ← draw (nth s.ext.total i)
  let b ← draw (bestAgent ls)
  setAt i b

/-- `DevTPO.evolve` (`mealpy/bio_based/TPO.py:103-131`) -/
def evolve (p : Params K) (ep : Nat) : M c Unit (Vars d K) Unit := do
  iter c.popSize (fun i _ => branchStep p i) ()
  modExt (fun y => { y with theta := y.theta * p.theta })
  iter c.popSize (fun i _ => top i) ()

/-- a root per leaf -/
def Ok0 (c : Cfg d K) (y : Vars d K) : Prop := y.roots.length = leafs c

/-- a root per leaf and `pop_size` full branches -/
def Ok (c : Cfg d K) (y : Vars d K) : Prop :=
  y.roots.length = leafs c ∧ y.total.length = c.popSize ∧ ∀ l ∈ y.total, l.length = leafs c ∧ ∀ a ∈ l, CF c a

theorem leafs_pos : 0 < leafs c := Nat.succ_pos _

theorem dt_init {Er : Err → Prop} {p : Params K} : DT Er (initVars p : D c _) (Ok0 c) := by
  unfold initVars
  exact DT.bind (DT.repM (Q := fun _ => True) fun _ _ => by dgo) fun r hr => DT.pure hr.1

theorem bt_init {Er : Err → Prop} (hE : c.E.Lawful) (hP : c.P.Lawful) {y : Vars d K} (hy : Ok0 c y) {start : Option (List (Agent d K Unit))} :
    BT Er (c.popSize * leafs c) (c.popSize * leafs c) (initialization y start : B c _) (fun r => r.1.length = c.popSize ∧ (∀ a ∈ r.1, CF c a) ∧ Ok c r.2) := by
  unfold initialization
  refine BT.bindS (BT.iter (lo := leafs c) (hi := leafs c) (fun i (r : List (Agent d K Unit) × List (List (Agent d K Unit))) => (r.1.length = i ∧ ∀ a ∈ r.1, CF c a) ∧
    r.2.length = i ∧ ∀ l ∈ r.2, l.length = leafs c ∧ ∀ a ∈ l, CF c a) c.popSize ⟨⟨rfl, by simp⟩, rfl, by simp⟩ ?_) le_rfl fun r hr => ?_
  · rintro i r hi ⟨⟨h1, h2⟩, h3, h4⟩
    unfold branch
    refine BT.bindS (BT.generatePopulation hE hP fun x _ => DT.pure trivial) le_rfl fun l hl => ?_
    refine BT.weaken (BT.bind0 (BT.liftD (DT.bestAgent' hE (by rw [hl.1]; exact leafs_pos))) fun b hb => BT.pure ⟨⟨by simp [h1], fun a ha => ?_⟩, by simp [h3], fun l' hl' => ?_⟩) (by omega) (by omega)
    · rcases List.mem_append.1 ha with g | g
      · exact h2 a g
      · rw [List.mem_singleton.1 g]; exact hl.2 b hb.1
    · rcases List.mem_append.1 hl' with g | g
      · exact h4 l' g
      · rw [List.mem_singleton.1 g]; exact hl
  · exact BT.weaken (BT.pure ⟨hr.1.1, hr.1.2, hy, hr.2.1, hr.2.2⟩) (by omega) (by omega)

theorem select_ok {team new : List (Agent d K Unit)} (hl : new.length = team.length) (h1 : ∀ a ∈ team, CF c a) (h2 : ∀ a ∈ new, CF c a) :
    (select (c := c) new team).length = team.length ∧ ∀ a ∈ select (c := c) new team, CF c a := by
  unfold select
  split
  · exact ⟨by rw [zipGreedy_length]; omega, zipGreedy_all h2 h1⟩
  · exact ⟨by rw [zipBetter_length]; omega, zipBetter_all h2 h1⟩

theorem wt_branchStep (hE : c.E.Lawful) (hP : c.P.Lawful) {p : Params K} {i : Nat} (hi : i < c.popSize) :
    WT noErr (Inv.std c Unit (Ok c)) (leafs c) (leafs c) (branchStep p i : M c Unit (Vars d K) Unit) (fun _ => True) := by
  unfold branchStep
  refine WT.bind0 WT.get fun s hs => ?_
  have hx : Ok c s.ext := hs.ext
  refine WT.bind0 (WT.draw (DT.nth_mem (by rw [hx.2.1]; exact hi))) fun ls hls => ?_
  have hls' := hx.2.2 ls hls
  refine WT.bind0 (R := fun r => r.length = leafs c) (WT.draw ?_) fun roots hr => ?_
  · unfold grow
    refine DT.mono (DT.repM (Q := fun _ => True) fun j hj => ?_) fun r h => h.1
    exact DT.bind (DT.nth_mem (by rw [hx.1]; exact hj)) fun _ _ => DT.bind (DT.nth_mem (by omega)) fun _ _ => by dgo
  · refine WT.bindS (WT.buildEval hE fun s' j _ hj => ?_) le_rfl fun new hn => ?_
    · unfold leaf
      exact DT.bind (DT.nth_mem (by rw [hx.1]; exact hj)) fun _ _ => DT.bind (DT.nth_mem (by omega)) fun _ _ => DT.bind (DT.correct hP) fun pos h => DT.pure (Inv.std_mk h)
    · refine WT.weaken (WT.modExt fun y hy => ⟨hr, by simpa using hy.2.1, fun t ht => ?_⟩) (by omega) (by omega)
      have := select_ok (c := c) (by omega : new.length = ls.length) hls'.2 hn.2
      rcases List.mem_or_eq_of_mem_set ht with g | g
      · exact hy.2.2 t g
      · rw [g]; exact ⟨by rw [this.1]; exact hls'.1, this.2⟩

theorem wt_top (hE : c.E.Lawful) {i : Nat} (hi : i < c.popSize) :
    WT noErr (Inv.std c Unit (Ok c)) 0 0 (top i : M c Unit (Vars d K) Unit) (fun _ => True) := by
  unfold top
  refine WT.bind0 WT.get fun s hs => ?_
  have hx : Ok c s.ext := hs.ext
  refine WT.bind0 (WT.draw (DT.nth_mem (by rw [hx.2.1]; exact hi))) fun ls hls => ?_
  have hls' := hx.2.2 ls hls
  exact WT.bind0 (WT.draw (DT.bestAgent' hE (by rw [hls'.1]; exact leafs_pos))) fun b hb => WT.setAt (by wsz) (Inv.std_ag (hls'.2 b hb.1))

theorem framed_branchStep (hE : c.E.Lawful) {p : Params K} {i : Nat} : Framed true (branchStep p i : M c Unit (Vars d K) Unit) := by
  unfold branchStep; framed

theorem framed_top (hE : c.E.Lawful) {i : Nat} : Framed true (top i : M c Unit (Vars d K) Unit) := by
  unfold top; framed

macro_rules
  | `(tactic| fprim) => `(tactic| (at_last DevTPO.branchStep; exact DevTPO.framed_branchStep (by assumption)))

macro_rules
  | `(tactic| fprim) => `(tactic| (at_last DevTPO.top; exact DevTPO.framed_top (by assumption)))

theorem le_init : c.popSize ≤ c.popSize * leafs c + c.popSize := Nat.le_add_left _ _

/-- `DevTPO` (`mealpy/bio_based/TPO.py:12-131`) -/
def algo (p : Params K) : Algo c Unit (Vars d K) := Algo.custom false (fun _ => pure ()) (initVars p) initialization (evolve p)

theorem wok (hE : c.E.Lawful) (hP : c.P.Lawful) (hc : Accepted c 5) (p : Params K) :
    (algo p : Algo c Unit (Vars d K)).WOk noErr (Inv.std c Unit (Ok c)) (Ok0 c) (Ok c) (c.popSize * DevTPO.leafs c) (c.popSize * DevTPO.leafs c + c.popSize) 0 0 (c.popSize * DevTPO.leafs c) (c.popSize * DevTPO.leafs c) := by
  have hpop := hc.pop
  unfold algo
  refine Algo.custom_wok (J := (Ok c)) (J0 := (Ok0 c)) (by omega) (fun x hx => by dgo) (by exact dt_init) le_init (fun y hy => BT.weaken (bt_init hE hP hy) (by omega) (by omega)) (fun y pop hy hl hp => BT.weaken (bt_init hE hP hy) (by omega) (by omega)) (fun ep hep1 hep2 => ?_)
  unfold evolve
  refine WT.bindS (WT.iterU (leafs c) (leafs c) le_rfl le_rfl fun i hi => wt_branchStep hE hP hi) (by omega) fun _ _ => WT.bind0 (WT.modExt fun y hy => hy) fun _ _ => ?_
  exact WT.iterU 0 0 (by omega) (by omega) fun i hi => wt_top hE hi

theorem framed (hE : c.E.Lawful) (p : Params K) (ep : Nat) : Framed true (evolve p ep : M c Unit (Vars d K) Unit) := by
  unfold evolve; framed

end DevTPO

namespace OriginalDO

/-- the attributes (`mealpy/swarm_based/DO.py:66`); `delta_max` is a function of the bounds and `radius` is never read -/
structure Vars (d : Nat) (K : Type) where
  delta : List (Agent d K Unit)

/-- `initialization` (`mealpy/swarm_based/DO.py:63-69`) -/
def initialization (_ : Vars d K) (start : Option (List (Agent d K Unit))) : B c (List (Agent d K Unit) × Vars d K) := do
  let pop ← startPop (fun _ => pure ()) start
  let delta ← generatePopulation (fun _ => pure ()) c.popSize
  pure (pop, ⟨delta⟩)

/-- the weights of an epoch (`mealpy/swarm_based/DO.py:78-89`) -/
structure Ctx (d : Nat) (K : Type) where
  best : Vec d K
  worst : Vec d K
  r : Vec d K
  w : K
  s : K
  a : K
  c : K
  f : K
  e : K

/-- the weights of an epoch (`mealpy/swarm_based/DO.py:78-89`) -/
def weights (ep : Nat) (s : St c Unit (Vars d K)) : D c (Ctx d K) := do
  let b ← bestAgent s.pop
  let w ← worstAgent s.pop
  let m : K := 0.1 - ♯ep * ((0.1 - 0) / (♯c.epoch / 2))
  let m : K := if m < 0 then 0 else m
  let u1 ← random
  let u2 ← random
  let u3 ← random
  let u4 ← random
  pure ⟨b.sol, w.sol, fun i => (c.P.ub i - c.P.lb i) / 4 + (c.P.ub i - c.P.lb i) * (2 * ♯ep / ♯c.epoch), 0.9 - ♯ep * ((0.9 - 0.4) / ♯c.epoch),
    2 * u1 * m, 2 * u2 * m, 2 * u3 * m, 2 * u4, m⟩

/-- `np.all(np.abs(x - y) <= r)` (`mealpy/swarm_based/DO.py:100,120,127`) -/
def near (r x y : Vec d K) : Prop := ∀ i, Num.abs (x i - y i) ≤ r i

instance (r x y : Vec d K) : Decidable (near r x y) := by unfold near; infer_instance

/-- the neighbours (`mealpy/swarm_based/DO.py:94-105`): close, and different in every coordinate -/
def neighbours (k : Ctx d K) (s : St c Unit (Vars d K)) (x : Vec d K) : List (Agent d K Unit × Agent d K Unit) :=
  (s.pop.zip s.ext.delta).filter (fun p => decide (near k.r x p.1.sol ∧ ∀ i, Num.abs (x i - p.1.sol i) ≠ 0))

/-- a candidate and its step (`mealpy/swarm_based/DO.py:94-153`) -/
def candidate (k : Ctx d K) (s : St c Unit (Vars d K)) (idx : Nat) : D c (Vec d K × Vec d K) := do
  let x ← nth s.pop idx
  let dl ← nth s.ext.delta idx
  let ns := neighbours k s x.sol
  let n : K := ♯ns.length
  let sum1 : Vec d K := fun i => sumL (ns.map (fun p => p.1.sol i))
  let sum2 : Vec d K := fun i => sumL (ns.map (fun p => p.2.sol i))
  let sv : Vec d K := fun i => if 1 < ns.length then sum1 i - n * x.sol i else 0
  let av : Vec d K := fun i => if 1 < ns.length then sum2 i / n else dl.sol i
  let cv : Vec d K := fun i => (if 1 < ns.length then sum1 i / n else x.sol i) - x.sol i
  let food : Vec d K := fun i => if near k.r x.sol k.best then k.best i - x.sol i else 0
  let enemy : Vec d K := fun i => if near k.r x.sol k.worst then k.worst i + x.sol i else 0
  let cl : Vec d K → Vec d K := fun v i => clip (v i) (-1 * ((c.P.ub i - c.P.lb i) / 10)) ((c.P.ub i - c.P.lb i) / 10)
  let q ← (if ∃ i, k.r i < Num.abs (x.sol i - k.best i) then
      if 1 < ns.length then do
        let u1 ← uniformVec (fun _ => 0) (fun _ => 1)
        let u2 ← uniformVec (fun _ => 0) (fun _ => 1)
        let u3 ← uniformVec (fun _ => 0) (fun _ => 1)
        let t := cl (fun i => k.w * dl.sol i + u1 i * av i + u2 i * cv i + u3 i * sv i)
        pure (fun i => x.sol i + t i, t)
      else do
        let l ← levy 1.5 0.01 (-1)
        pure (fun i => x.sol i + l * x.sol i, fun _ => 0)
    else do
      let t := cl (fun i => (k.a * av i + k.c * cv i + k.s * sv i + k.f * food i + k.e * enemy i) + k.w * dl.sol i)
      pure (fun i => x.sol i + t i, t) : D c (Vec d K × Vec d K))
  let pos ← correct q.1
  let delta ← correct q.2
  pure (pos, delta)

/-- one dragonfly in mode `single` (`mealpy/swarm_based/DO.py:94-162`) -/
def step (k : Ctx d K) (idx : Nat) : M c Unit (Vars d K) Unit := do
  let s ← get
  let q ← draw (candidate k s idx)
  let a ← liftB (agentOf (fun _ => pure ()) q.1)
  let b ← liftB (agentOf (fun _ => pure ()) q.2)
  let x ← draw (nth s.pop idx)
  let dl ← draw (nth s.ext.delta idx)
  setAt idx (getBetterAgent a x c.P.mm)
  modExt (fun y => ⟨y.delta.set idx (getBetterAgent b dl c.P.mm)⟩)

/-- the epoch in the other modes (`mealpy/swarm_based/DO.py:93-167`) -/
def swarm (k : Ctx d K) : M c Unit (Vars d K) Unit := do
  let s ← get
  let qs ← draw (repM c.popSize (fun i => candidate k s i))
  let new ← evalAll (qs.map (fun q => (q.1, ())))
  let dnew ← evalAll (qs.map (fun q => (q.2, ())))
  selectGreedy new
  modExt (fun y => ⟨zipGreedy c.P.mm y.delta dnew⟩)

/-- `OriginalDO.evolve` (`mealpy/swarm_based/DO.py:71-167`). The assignments to `self.g_best` and `self.g_worst` are overwritten before they are read
again, by the run and by the next epoch. -/
def evolve (ep : Nat) : M c Unit (Vars d K) Unit := do
  let s ← get
  let k ← draw (weights ep s)
  if c.swarmLike then swarm k else iter c.popSize (fun i _ => step k i) ()

/-- a step, itself an evaluated agent, per dragonfly -/
def Ok (c : Cfg d K) (y : Vars d K) : Prop := y.delta.length = c.popSize ∧ ∀ a ∈ y.delta, CF c a

theorem dt_candidate {Er : Err → Prop} (hP : c.P.Lawful) {k : Ctx d K} {s : St c Unit (Vars d K)} {idx : Nat} (h1 : idx < s.pop.length)
    (h2 : idx < s.ext.delta.length) : DT Er (candidate k s idx : D c _) (fun q => Feas c q.1 ∧ Feas c q.2) := by
  unfold candidate
  refine DT.bind (DT.nth_mem h1) fun x _ => DT.bind (DT.nth_mem h2) fun dl _ => DT.bind (R := fun _ => True) (DT.ite (fun _ => DT.ite (fun _ => ?_) fun _ => ?_) fun _ => DT.pure trivial) fun q _ => ?_
  · dgo
  · exact DT.bind DT.levy fun _ _ => DT.pure trivial
  · exact DT.bind (DT.correct hP) fun pos hp => DT.bind (DT.correct hP) fun dl hd => DT.pure ⟨hp, hd⟩

theorem better_cf {a b : Agent d K Unit} (ha : CF c a) (hb : CF c b) : CF c (getBetterAgent a b c.P.mm) := by
  unfold getBetterAgent
  repeat' split
  all_goals first | exact ha | exact hb

theorem wt_step (hP : c.P.Lawful) {k : Ctx d K} {idx : Nat} (hi : idx < c.popSize) :
    WT noErr (Inv.std c Unit (Ok c)) 2 2 (step k idx : M c Unit (Vars d K) Unit) (fun _ => True) := by
  unfold step
  refine WT.bind0 WT.get fun s hs => ?_
  have hl : s.pop.length = c.popSize := hs.len
  have hx : Ok c s.ext := hs.ext
  refine WT.bind0 (WT.draw (dt_candidate hP (by omega) (by rw [hx.1]; exact hi))) fun q hq => ?_
  refine WT.agentOf_std hq.1 (DT.pure trivial) (by omega) fun a ha => WT.agentOf_std hq.2 (DT.pure trivial) (by omega) fun b hb => ?_
  refine WT.bind0 (WT.draw (DT.nth_mem (by omega))) fun x hx1 => WT.bind0 (WT.draw (DT.nth_mem (by rw [hx.1]; exact hi))) fun dl hdl => ?_
  refine WT.bind0 (WT.setAt (by wsz) (Inv.std_ag (better_cf ha (hs.pop x hx1)))) fun _ _ => WT.modExt fun y hy => ⟨by simpa using hy.1, fun e he => ?_⟩
  rcases List.mem_or_eq_of_mem_set he with g | g
  · exact hy.2 e g
  · rw [g]; exact better_cf hb (hx.2 dl hdl)

theorem wt_evalPos {α : Type} (hE : c.E.Lawful) {qs : List α} {g : α → Vec d K} (hl : qs.length = c.popSize) (h : ∀ q ∈ qs, Feas c (g q)) :
    WT noErr (Inv.std c Unit (Ok c)) c.popSize c.popSize (evalAll (qs.map (fun q => (g q, ()))) : M c Unit (Vars d K) _)
      (fun l => l.length = c.popSize ∧ ∀ a ∈ l, CF c a) := by
  have h1 : (qs.map (fun q => (g q, ()))).length = c.popSize := by rw [List.length_map, hl]
  have := WT.evalAll (Er := noErr) (I := Inv.std c Unit (Ok c)) hE (pend := qs.map (fun q => (g q, ()))) fun p hp => by
    obtain ⟨q, hq, rfl⟩ := List.mem_map.1 hp
    exact Inv.std_mk (h q hq)
  rw [h1] at this
  exact this

theorem wt_swarm (hE : c.E.Lawful) (hP : c.P.Lawful) {k : Ctx d K} :
    WT noErr (Inv.std c Unit (Ok c)) (c.popSize + c.popSize) (c.popSize + c.popSize) (swarm k : M c Unit (Vars d K) Unit) (fun _ => True) := by
  unfold swarm
  refine WT.bind0 WT.get fun s hs => ?_
  have hl : s.pop.length = c.popSize := hs.len
  have hx : Ok c s.ext := hs.ext
  refine WT.bind0 (R := fun qs => qs.length = c.popSize ∧ ∀ q ∈ qs, Feas c q.1 ∧ Feas c q.2)
    (WT.draw (DT.repM fun i hi => dt_candidate hP (by omega) (by rw [hx.1]; exact hi))) fun qs hqs => ?_
  refine WT.bindS (l1 := c.popSize) (h1 := c.popSize) (R := fun l => l.length = c.popSize ∧ ∀ a ∈ l, CF c a) (wt_evalPos hE hqs.1 fun q hq => (hqs.2 q hq).1) (by omega) fun new hn => ?_
  refine WT.bindS (l1 := c.popSize) (h1 := c.popSize) (R := fun l => l.length = c.popSize ∧ ∀ a ∈ l, CF c a) (wt_evalPos hE hqs.1 fun q hq => (hqs.2 q hq).2) (by omega) fun dnew hdn => ?_
  refine WT.bind0 (WT.selectGreedy (fun n h => Eq.trans h hn.1.symm) hn.2) fun _ _ => WT.weaken (WT.modExt fun y hy => ⟨?_, zipGreedy_all hy.2 hdn.2⟩) (by omega) (by omega)
  rw [zipGreedy_length, hy.1, hdn.1, Nat.min_self]

theorem bt_none (hE : c.E.Lawful) (hP : c.P.Lawful) {y : Vars d K} :
    BT noErr (c.popSize + c.popSize) (c.popSize + c.popSize) (initialization y none : B c _) (fun r => r.1.length = c.popSize ∧ (∀ a ∈ r.1, CF c a) ∧ Ok c r.2) := by
  unfold initialization startPop
  exact BT.bind (BT.generatePopulation hE hP fun x _ => DT.pure trivial) fun pop hpop =>
    BT.bindS (BT.generatePopulation hE hP fun x _ => DT.pure trivial) le_rfl fun dl hdl => BT.weaken (BT.pure ⟨hpop.1, hpop.2, hdl⟩) (by omega) (by omega)

theorem bt_some (hE : c.E.Lawful) (hP : c.P.Lawful) {y : Vars d K} {pop : List (Agent d K Unit)} (hl : pop.length = c.popSize) (hc : ∀ a ∈ pop, CF c a) :
    BT noErr (c.popSize + c.popSize - c.popSize) (c.popSize + c.popSize - c.popSize) (initialization y (some pop) : B c _)
      (fun r => r.1.length = c.popSize ∧ (∀ a ∈ r.1, CF c a) ∧ Ok c r.2) := by
  unfold initialization startPop
  rw [pure_bind]
  exact BT.bindS (BT.generatePopulation hE hP fun x _ => DT.pure trivial) (by omega) fun dl hdl => BT.weaken (BT.pure ⟨hl, hc, hdl⟩) (by omega) (by omega)

theorem framed_step (hE : c.E.Lawful) {k : Ctx d K} {i : Nat} : Framed true (step k i : M c Unit (Vars d K) Unit) := by
  unfold step; framed

theorem framed_swarm (hE : c.E.Lawful) {k : Ctx d K} : Framed true (swarm k : M c Unit (Vars d K) Unit) := by
  unfold swarm; framed

macro_rules
  | `(tactic| fprim) => `(tactic| (at_last OriginalDO.step; exact OriginalDO.framed_step (by assumption)))

macro_rules
  | `(tactic| fprim) => `(tactic| (at_last OriginalDO.swarm; exact OriginalDO.framed_swarm (by assumption)))

/-- `OriginalDO` (`mealpy/swarm_based/DO.py:12-167`) -/
def algo : Algo c Unit (Vars d K) := Algo.custom false (fun _ => pure ()) (pure ⟨[]⟩) initialization evolve

theorem wok (hE : c.E.Lawful) (hP : c.P.Lawful) (hc : Accepted c 5) :
    (algo : Algo c Unit (Vars d K)).WOk noErr (Inv.std c Unit (Ok c)) JT (Ok c) (c.popSize + c.popSize) (c.popSize + c.popSize) 0 0 (c.popSize + c.popSize) (c.popSize + c.popSize) := by
  have hpop := hc.pop
  unfold algo
  refine Algo.custom_wok (J := (Ok c)) (J0 := JT) (by omega) (fun x hx => by dgo) (by dgo) (by omega) (fun y hy => bt_none hE hP) (fun y pop hy hl hp => bt_some hE hP hl hp) (fun ep hep1 hep2 => ?_)
  unfold evolve
  refine WT.bind0 WT.get fun s hs => ?_
  have hl : s.pop.length = c.popSize := hs.len
  refine WT.bind0 (R := fun _ => True) (WT.draw ?_) fun k _ => WT.ite (fun _ => wt_swarm hE hP) fun _ => WT.iterU 2 2 (by omega) (by omega) fun i hi => wt_step hP hi
  unfold weights
  exact DT.bind (DT.bestAgent' hE (by omega)) fun _ _ => DT.bind (DT.worstAgent hE (by omega)) fun _ _ => DT.bind DT.random' fun _ _ => DT.bind DT.random' fun _ _ => DT.bind DT.random' fun _ _ => DT.bind DT.random' fun _ _ => DT.pure trivial

theorem framed (hE : c.E.Lawful) (ep : Nat) : Framed true (evolve ep : M c Unit (Vars d K) Unit) := by
  unfold evolve; framed

end OriginalDO

end Mealpy
