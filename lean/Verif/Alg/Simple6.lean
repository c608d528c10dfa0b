import Mathlib.Data.List.Sort
import Verif.Alg.Kit7

/-! # Simple optimizers, part 6

`BWO.py`, `FA.py`, `BWOA.py`, `ESO.py`, `FDO.py`, `ESOA.py`, `SOA.py`, `CDDO.py`, `DBO.py`, `SOO.py`, `GJA.py`, `ArchOA.py`, `APO.py`,
`COA.py`, `ASO.py`, `SSpiderA.py` -/

set_option linter.unusedSectionVars false
set_option linter.unusedVariables false

namespace Mealpy
open Spec

variable {d : Nat} {K : Type} [Num K] {c : Cfg d K}
namespace OriginalBWO

/-- the first two phases (`mealpy/swarm_based/BWO.py:72-97`) -/
def dive (ep : Nat) (b0 : List K) (s : St c Unit Unit) (idx : Nat) : D c (Vec d K × Unit) := do
  let g := s.gbest.sol
  let rr ← pickWithout c.popSize [idx]
  let y ← nth s.pop rr
  let x ← nth s.pop idx
  let b ← nth b0 idx
  if b * (1 - ♯ep / (2 * ♯c.epoch)) > 0.5 then do
    let r1 ← random
    let r2 ← random
    let pj ← repM d (fun _ => index d)
    let p1 ← repM d (fun _ => index d)
    let pos ← correct (fun j =>
      let base := x.sol.at (pj.getD j.val 0)
      let trig := if (j.val + 1) % 2 = 0 then Num.sin (2 * Num.pi * r2) else Num.cos (2 * Num.pi * r2)
      base + (x.sol.at (p1.getD j.val 0) - base) * (1 + r1) * trig)
    pure (pos, ())
  else do
    let r3 ← random
    let r4 ← random
    let lf ← levyVec 1.5 0.05 (-1)
    let pos ← correct (fun j => r3 * g j - r4 * x.sol j + 2 * r4 * (1 - ♯ep / ♯c.epoch) * lf j * (y.sol j - x.sol j))
    pure (pos, ())

/-- the whale fall (`mealpy/swarm_based/BWO.py:114-146`) -/
def fall (ep : Nat) (s : St c Unit Unit) (idx : Nat) : D c (Option (Vec d K × Unit)) := do
  let wf : K := 0.1 - 0.05 * (♯ep / ♯c.epoch)
  let r ← random
  if r < wf then do
    let rr ← pickWithout c.popSize [idx]
    let r5 ← random
    let r6 ← random
    let r7 ← random
    let x ← nth s.pop idx
    let y ← nth s.pop rr
    let pos ← correct (fun j => r5 * x.sol j - r6 * y.sol j +
      r7 * ((c.P.ub j - c.P.lb j) * Num.exp (-(2 * wf * ♯c.popSize) * ♯ep / ♯c.epoch)))
    pure (some (pos, ()))
  else pure none

/-- `OriginalBWO.evolve` (`mealpy/swarm_based/BWO.py:56-146`) -/
def evolve (ep : Nat) : M c Unit Unit Unit := do
  let b0 ← draw (repM c.popSize (fun _ => random))
  greedyLoop c.popSize (dive ep b0)
  greedySome c.popSize (fall ep)

/-- `OriginalBWO` (`mealpy/swarm_based/BWO.py:11-146`) -/
def algo : Algo c Unit Unit := Algo.plain false evolve

theorem ok (hE : c.E.Lawful) (hP : c.P.Lawful) (hc : Accepted c 5) (hd : 0 < d) :
    (algo : Algo c Unit Unit).Ok (FA c) JT JT JT c.popSize c.popSize (c.popSize + c.popSize) := by
  plainalg hE hP hc evolve
  unfold dive fall
  iauto

theorem framed (hE : c.E.Lawful) (ep : Nat) : Framed true (evolve ep : M c Unit Unit Unit) := by
  unfold evolve; framed

end OriginalBWO

namespace OriginalFA

/-- the parameters (`mealpy/swarm_based/FA.py:75-79`) -/
structure Params (K : Type) where
  maxSparks : Nat
  pa : K
  pb : K
  maxEa : Nat
  mSparks : Nat

/-- how many sparks one firework makes (`mealpy/swarm_based/FA.py:94-103`); the second threshold uses `m_sparks` -/
def count (p : Params K) (n : Nat) (fl : List K) (f : K) : Nat :=
  let last := fl.getLast?.getD 0
  let si : K := ♯p.maxSparks * (last - f) / (♯n * last - sumL fl + Num.EPSILON)
  let r : K → Nat := fun x => (Num.floor (Num.ufunc "round" x) + 1).toNat
  if si < p.pa * ♯p.maxSparks then r (p.pa * ♯p.maxSparks)
  else if si > p.pb * ♯p.mSparks then r (p.pb * ♯p.maxSparks)
  else r si

/-- no firework makes more sparks than this -/
def cap (p : Params K) : Nat :=
  let r : K → Nat := fun x => (Num.floor (Num.ufunc "round" x) + 1).toNat
  max (r (p.pa * ♯p.maxSparks)) (max (r (p.pb * ♯p.maxSparks)) (r (p.pb * ♯p.mSparks)))

theorem count_le (hr : RoundMono K) (p : Params K) (n : Nat) (fl : List K) (f : K) : count p n fl f ≤ cap p := by
  unfold count cap
  simp only
  split
  · omega
  · split
    · omega
    · rename_i h
      have := hr _ _ (not_lt.1 h)
      omega

/-- coordinates outside the bounds are wrapped (`mealpy/swarm_based/FA.py:111-112`) -/
def wrap (x : Vec d K) : Vec d K := fun j =>
  if x j < c.P.lb j ∨ c.P.ub j < x j then c.P.lb j + Num.mod (Num.abs (x j)) (c.P.ub j - c.P.lb j) else x j

/-- the dimensions that change (`mealpy/swarm_based/FA.py:108`): at most all of them, since the draw is below one -/
def some_dims : D c (List Nat) := do
  let u ← random
  subset d (Num.floor (Num.ufunc "round" (u * ♯d : K))).toNat

/-- one spark (`mealpy/swarm_based/FA.py:107-113`) -/
def spark (p : Params K) (fl : List K) (x : Agent d K Unit) : D c (Vec d K × Unit) := do
  let first := fl.head?.getD 0
  let ai : K := ♯p.maxEa * (x.fit - first) / (sumL fl - first + Num.EPSILON)
  let dims ← some_dims
  let u ← uniform (-1) 1
  let pos ← correct (wrap (c := c) (atDims dims x.sol (fun j => x.sol j + ai * u)))
  pure (pos, ())

/-- one Gaussian spark (`mealpy/swarm_based/FA.py:121-128`); the draws of the changing coordinates are taken from a full vector -/
def gauss (pop : List (Agent d K Unit)) : D c (Vec d K × Unit) := do
  let idx ← index c.popSize
  let x ← nth pop idx
  let dims ← some_dims
  let z ← normalVec 0 1
  let pos ← correct (wrap (c := c) (atDims dims x.sol (fun j => x.sol j + z j)))
  pure (pos, ())

/-- `OriginalFA.evolve` (`mealpy/swarm_based/FA.py:83-136`). In the parallel modes `update_target_for_population(pop_new)` after each
firework evaluates all sparks made so far again. -/
def evolve (p : Params K) (ep : Nat) : M c Unit Unit Unit := do
  let s ← get
  let fl := (s.pop.map Agent.fit).insertionSort (fun a b => a ≤ b)
  let acc ← iter c.popSize (fun idx acc => do
    let x ← draw (nth s.pop idx)
    let pend ← draw (repM (count p c.popSize fl x.fit) (fun _ => spark p fl x))
    evalMore acc pend) []
  let pend ← draw (repM p.mSparks (fun _ => gauss s.pop))
  let new ← evalMore acc pend
  reshape (fun pop => getSortedTrimmed c.E.argsort (new ++ pop) c.popSize c.P.mm)

theorem dt_dims {Er : Err → Prop} (hE : c.E.Lawful) (hd : 0 < d) : DT Er (some_dims : D c (List Nat)) (fun _ => True) := by
  unfold some_dims; dgo

theorem dt_spark {Er : Err → Prop} (hE : c.E.Lawful) (hP : c.P.Lawful) (hd : 0 < d) {p : Params K} {fl : List K} {x : Agent d K Unit} :
    DT Er (spark p fl x : D c (Vec d K × Unit)) (MkOk (FA c) c) := by
  unfold spark
  exact DT.bind (dt_dims hE hd) fun dims _ => DT.bind DT.uniform' fun u _ => DT.bind (DT.correct hP) fun pos hp => DT.pure (FA.mkOk hp)

theorem dt_gauss {Er : Err → Prop} (hE : c.E.Lawful) (hP : c.P.Lawful) (hd : 0 < d) {pop : List (Agent d K Unit)} (h0 : 0 < c.popSize)
    (hl : pop.length = c.popSize) : DT Er (gauss pop : D c (Vec d K × Unit)) (MkOk (FA c) c) := by
  unfold gauss
  refine DT.bind (DT.index hE h0) fun idx hi => DT.bind (DT.nth_mem (by omega)) fun x _ => DT.bind (dt_dims hE hd) fun dims _ => ?_
  exact DT.bind DT.normalVec fun u _ => DT.bind (DT.correct hP) fun pos hp => DT.pure (FA.mkOk hp)

/-- `OriginalFA` (`mealpy/swarm_based/FA.py:12-136`) -/
def algo (p : Params K) : Algo c Unit Unit := Algo.plain false (evolve p)

theorem ok (hE : c.E.Lawful) (hP : c.P.Lawful) (hc : Accepted c 5) (p : Params K) (hd : 0 < d) (hr : RoundMono K) :
    (algo p : Algo c Unit Unit).Ok (FA c) JT JT JT c.popSize p.mSparks (c.popSize * (c.popSize * OriginalFA.cap p) + (c.popSize * OriginalFA.cap p + p.mSparks)) := by
  plainalg hE hP hc evolve
  refine IT.pt (HJ.it (HJ.bind0 (HJ.ofIT IT.get) fun s hs => ?_))
  have hlen := hs.toGoodPop.len
  refine HJ.bindS (l1 := c.popSize * 0) (h1 := c.popSize * (c.popSize * cap p)) (HJ.iter (fun l => l) (fun i (l : List (Agent d K Unit)) => l.length ≤ i * cap p) _ (by simp)
    fun i acc hi hacc => ?_) (by omega) fun acc hacc => ?_
  · refine HJ.bind0 (HJ.draw (DT.nth_mem (by omega))) fun x hx => HJ.bind0 (HJ.draw (DT.repM fun _ _ => dt_spark hE hP hd)) fun pend hp => ?_
    have hb := count_le hr p c.popSize ((s.pop.map Agent.fit).insertionSort (fun a b => a ≤ b)) x.fit
    have h1 : (i + 1) * cap p ≤ c.popSize * cap p := Nat.mul_le_mul_right _ hi
    have h2 : (i + 1) * cap p = i * cap p + cap p := Nat.succ_mul _ _
    refine HJ.weaken (HJ.post (HJ.evalMore hE hp.2) fun l hl => ?_) (by omega) (by omega)
    omega
  · refine HJ.bind0 (HJ.draw (DT.repM fun _ _ => dt_gauss hE hP hd (by omega) hlen)) fun pend hp => ?_
    refine HJ.bindS (HJ.evalMore hE hp.2) (by omega) fun new hn => ?_
    refine HJ.weaken (HJ.reshape fun pop hpl => ⟨?_, fun a ha => ?_, fun a ha => ?_⟩) (by omega) (by omega)
    · rw [trimmed_length hE, List.length_append]; omega
    · rcases List.mem_append.1 (trimmed_mem hE ha) with h | h
      · exact .inr h
      · exact .inl h
    · exact trimmed_cover hE (by omega) (List.mem_append.2 ha.symm)

theorem framed (hE : c.E.Lawful) (p : Params K) (ep : Nat) : Framed true (evolve p ep : M c Unit Unit Unit) := by
  unfold evolve; framed

end OriginalFA

namespace OriginalBWOA

/-- `n_parents`, `n_mutate` as computed from `pp`, `pm` (`mealpy/evolutionary_based/BWOA.py:80-84`) and `cr` -/
structure Params (K : Type) where
  nPar : Nat
  nMut : Nat
  cr : K

/-- `_procreate` (`mealpy/evolutionary_based/BWOA.py:86-98`) -/
def procreate (x y : Vec d K) : D c (Vec d K × Vec d K) := do
  let ids ← subset d (max 1 (d / 2))
  let al ← repM (max 1 (d / 2)) (fun _ => random)
  let a : Fin d → K := fun j => al.getD (ids.idxOf j.val) 0
  let p1 ← correct (atDims ids x (fun j => a j * x j + (1 - a j) * y j))
  let p2 ← correct (atDims ids y (fun j => a j * y j + (1 - a j) * x j))
  pure (p1, p2)

theorem dt_procreate {Er : Err → Prop} (hE : c.E.Lawful) (hP : c.P.Lawful) (hd : 0 < d) {x y : Vec d K} :
    DT Er (procreate x y : D c (Vec d K × Vec d K)) (fun q => Feas c q.1 ∧ Feas c q.2) := by
  unfold procreate
  refine DT.bind (DT.subset hE hd) fun ids _ => DT.bind (DT.repMT fun _ _ => DT.random') fun al _ => ?_
  exact DT.bind (DT.correct hP) fun p1 h1 => DT.bind (DT.correct hP) fun p2 h2 => DT.pure ⟨h1, h2⟩

/-- one mating (`mealpy/evolutionary_based/BWOA.py:123-140`) -/
def mate (p : Params K) (pop1 acc : List (Agent d K Unit)) : M c Unit Unit (List (Agent d K Unit)) := do
  let (i, j) ← draw (choose2 pop1.length)
  let x ← draw (nth pop1 i)
  let y ← draw (nth pop1 j)
  let (c1, c2) ← draw (procreate x.sol y.sol)
  let kids ← evalAll [(c1, ()), (c2, ())]
  let b ← draw (dist "binomial" [2, 1 - p.cr])
  let kids ← draw (sortedPop kids)
  pure (acc ++ [getBetterAgent x y c.P.mm] ++ kids.take (max 1 (Num.floor b).toNat))

/-- one mutation (`mealpy/evolutionary_based/BWOA.py:100-109,145-147`) -/
def mutant (pop1 : List (Agent d K Unit)) : D c (Vec d K × Unit) := do
  let i ← index pop1.length
  let x ← nth pop1 i
  let k ← index d
  let u ← uniform (Vec.at c.P.lb k) (Vec.at c.P.ub k)
  let pos ← correct (atDims [k] x.sol (fun _ => u))
  pure (pos, ())

/-- `OriginalBWOA.evolve` (`mealpy/evolutionary_based/BWOA.py:111-158`) -/
def evolve (p : Params K) (ep : Nat) : M c Unit Unit Unit := do
  let s ← get
  let sorted ← draw (sortedPop s.pop)
  let pop1 := sorted.take p.nPar
  let pop2 ← iter p.nPar (fun _ acc => mate p pop1 acc) []
  let pop3 ← buildEval p.nMut (fun _ _ => mutant pop1)
  let new := pop2 ++ pop3
  let new := new ++ sorted.take (c.popSize - new.length)
  setPop (getSortedTrimmed c.E.argsort new c.popSize c.P.mm)

theorem rk_mate (hE : c.E.Lawful) (hP : c.P.Lawful) (hd : 0 < d) {p : Params K} {P pop1 acc : List (Agent d K Unit)} (h2 : 2 ≤ pop1.length)
    (hP1 : ∀ a ∈ pop1, a ∈ P) : RK (FA c) JT P 2 2 acc (mate p pop1 acc : M c Unit Unit _) (fun l => l) (fun _ => True) := by
  unfold mate
  refine RK.bind0 (RK.of (RJ.draw (DT.choose2 hE h2))) ?_
  rintro ⟨i, j⟩ ⟨hi, hj, -⟩
  refine RK.bind0 (RK.of (RJ.draw (DT.nth_mem hi))) fun x hx => RK.bind0 (RK.of (RJ.draw (DT.nth_mem hj))) fun y hy => ?_
  refine RK.bind0 (RK.of (RJ.draw (dt_procreate hE hP hd))) ?_
  rintro ⟨c1, c2⟩ ⟨h1, h2⟩
  refine RK.bind (l1 := 2) (h1 := 2) (l2 := 0) (h2 := 0) (RK.of (RJ.evalAll hE (by
    intro q hq
    simp only [List.mem_cons, List.not_mem_nil, or_false] at hq
    rcases hq with rfl | rfl
    · exact FA.mkOk h1
    · exact FA.mkOk h2))) fun kids hk => ?_
  refine RK.bind0 (RK.of (RJ.draw DT.dist)) fun b _ => RK.bind0 (RK.of (RJ.draw (DT.sortedPop' hE))) fun sk hs => ?_
  have hlen : sk.length = 2 := by rw [hs.1, hk.1]; rfl
  refine RK.pure (fun b hb => ?_) (fun a ha => ?_) trivial
  · simp only [List.mem_append, List.mem_singleton, or_assoc] at hb
    rcases hb with h | h | h
    · exact .inl (List.mem_append_left _ h)
    · right
      rw [h]
      rcases (getBetterAgent_cases x y c.P.mm).1 with e | e <;> rw [e]
      · exact hP1 _ hx
      · exact hP1 _ hy
    · exact .inl (List.mem_append_right _ ((hs.2.1 _).1 (List.mem_of_mem_take h)))
  · rcases List.mem_append.1 ha with h | h
    · exact ⟨a, by simp [h], NoWorse.rfl⟩
    · have hm := (hs.2.1 a).2 h
      match sk, hlen, hs.2.2 with
      | [k1, k2], _, hpw =>
        refine ⟨k1, ?_, ?_⟩
        · simp only [List.mem_append]
          right
          obtain ⟨n, hn⟩ : ∃ n, max 1 (Num.floor b).toNat = n + 1 := ⟨max 1 (Num.floor b).toNat - 1, by omega⟩
          rw [hn, List.take_succ_cons]
          exact List.mem_cons_self
        · simp only [List.mem_cons, List.not_mem_nil, or_false] at hm
          rcases hm with rfl | rfl
          · exact NoWorse.rfl
          · exact (List.pairwise_cons.1 hpw).1 _ (by simp)

theorem framed_mate (hE : c.E.Lawful) {p : Params K} {pop1 acc : List (Agent d K Unit)} :
    Framed true (mate p pop1 acc : M c Unit Unit _) := by
  unfold mate; framed

macro_rules
  | `(tactic| fprim) => `(tactic| (at_last OriginalBWOA.mate; exact OriginalBWOA.framed_mate (by assumption)))

/-- `OriginalBWOA` (`mealpy/evolutionary_based/BWOA.py:12-158`) -/
def algo (p : Params K) : Algo c Unit Unit := Algo.plain false (evolve p)

theorem ok (hE : c.E.Lawful) (hP : c.P.Lawful) (hc : Accepted c 5) (p : Params K) (hd : 0 < d) (hp : 2 ≤ p.nPar) :
    (algo p : Algo c Unit Unit).Ok (FA c) JT JT JT c.popSize (p.nPar * 2 + p.nMut) (p.nPar * 2 + p.nMut) := by
  plainalg hE hP hc evolve
  refine RL.pt fun s hs => ?_
  have hlen := hs.toGoodPop.len
  refine RL.bind0 (RK.of (RJ.draw (DT.sortedPop' hE))) fun sorted hso => ?_
  have hp1 : ∀ a ∈ sorted.take p.nPar, a ∈ s.pop := fun a ha => (hso.2.1 a).1 (List.mem_of_mem_take ha)
  have hpl : 2 ≤ (sorted.take p.nPar).length := by rw [List.length_take]; omega
  refine RL.bindS (RK.iter (lo := 2) (hi := 2) (fun l => l) (fun _ _ => True) _ trivial fun i acc _ _ => rk_mate hE hP hd hpl hp1) (by omega) fun pop2 _ => ?_
  refine RL.bindS (RK.of (RJ.buildEval hE fun s i hs hl hi => ?_)) (by omega) fun pop3 hp3 => ?_
  · unfold mutant
    refine DT.bind (DT.index hE (by omega)) fun i hi => DT.bind (DT.nth_mem hi) fun x _ => DT.bind (DT.index hE hd) fun k _ => ?_
    exact DT.bind DT.uniform' fun u _ => DT.bind (DT.correct hP) fun pos hpos => DT.pure (FA.mkOk hpos)
  · refine RL.weaken (RL.setPop ?_ (fun a ha => ?_) fun a ha => ?_) (by omega) (by omega)
    · rw [trimmed_length hE, List.length_append, List.length_take]; omega
    · rcases List.mem_append.1 (trimmed_mem hE ha) with h | h
      · exact .inl h
      · exact .inr ((hso.2.1 a).1 (List.mem_of_mem_take h))
    · exact trimmed_cover hE (by omega) (List.mem_append_left _ ha)

theorem framed (hE : c.E.Lawful) (p : Params K) (ep : Nat) : Framed true (evolve p ep : M c Unit Unit Unit) := by
  unfold evolve; framed

end OriginalBWOA

namespace OriginalESO

/-- the spread of the population relative to its widest side, none if it has collapsed (`mealpy/physics_based/ESO.py:68-78`) -/
def resistance (pop : List (Agent d K Unit)) : Option K :=
  let mean : Vec d K := fun j => meanL (pop.map (fun a => a.sol j))
  let std : K := Num.sqrt (meanL (pop.map (fun a => sumL (List.ofFn fun j => (a.sol j - mean j) * (a.sol j - mean j)))))
  let ptp : K := maxL (List.ofFn fun j : Fin d => maxL (pop.map (fun a => a.sol j)) - minL (pop.map (fun a => a.sol j)))
  if ptp ≤ 0 then none else some (std / ptp)

/-- the ionized agents (`mealpy/physics_based/ESO.py:74-86`); `np.percentile` raises `ValueError` for a percentile outside `[0, 100]` -/
def ionized (pop : List (Agent d K Unit)) : D c (List (Agent d K Unit)) :=
  match resistance pop with
  | none => pure []
  | some r =>
    let q : K := (r / 2) * 100
    if q < 0 ∨ 100 < q then dthrow .value
    else pure (pop.filter (fun a => decide (a.fit ≤ percentile (pop.map Agent.fit) q)))

/-- field conductivity and storm power (`mealpy/physics_based/ESO.py:89-122`) -/
def storm (ep : Nat) (r : K) : K × K :=
  let e : K := Num.exp r / r
  let l1 : K := if r < 1 then Num.log (1 - r) else 0
  let beta : K := 1 / (1 + Num.exp (-e) * (r - Num.abs l1))
  let fc : K := if r ≤ 0 then 1 else Num.exp r + Num.exp (1 - r) * Num.abs (Num.log r) * beta
  let ir : K := ♯ep / ♯c.epoch
  let l2 : K := if ir < 1 then Num.log (1 - ir) else 0
  let gama : K := 1 / (1 + Num.exp (-e * (r - Num.abs l2)))
  let fi : K := if r ≤ 0 then fc else fc * gama
  (fc, if fc > 0 then (r * fi) / fc else 0)

/-- the first agent of a round (`mealpy/physics_based/ESO.py:128-137`); a perturbed agent is evaluated twice -/
def first (sp : K) (ion : List (Agent d K Unit)) (idx : Nat) : M c Unit Unit (Agent d K Unit) :=
  if idx = 0 ∨ ion.length = 0 then do
    let x ← draw genSolution
    let t ← liftB (getTarget x)
    pure ⟨x, t, ()⟩
  else do
    let k ← draw (index ion.length)
    let al ← draw (nth ion k)
    let z ← draw (normalVec 0 sp)
    let pos ← draw (correct (fun j => al.sol j + z j))
    let a ← liftB (agentOf (fun _ => pure ()) pos)
    let t ← liftB (getTarget a.sol)
    pure { a with tgt := t }

/-- where the second agent of a round goes (`mealpy/physics_based/ESO.py:141-160`) -/
def second (fc sp : K) (ion : List (Agent d K Unit)) (a : Agent d K Unit) : D c (Vec d K) := do
  if ion.any (fun b => decide (normV (fun j => a.sol j - b.sol j) < 0.1)) then correct (fun j => a.sol j * sp)
  else if ion.length > 0 then do
    let u ← uniformVec (fun _ => -fc) (fun _ => fc)
    correct (fun j => meanL (ion.map (fun b => b.sol j)) + sp * Num.exp fc * u j)
  else do
    let u ← uniformVec c.P.lb c.P.ub
    correct u

/-- `OriginalESO.evolve` (`mealpy/physics_based/ESO.py:59-168`). The comparison of the two agents ignores `minmax`. -/
def evolve (ep : Nat) : M c Unit Unit Unit := do
  let s ← get
  let ion ← draw (ionized s.pop)
  let (fc, sp) := storm (c := c) ep ((resistance s.pop).getD 0)
  let new ← iter c.popSize (fun idx acc => do
    let a ← first sp ion idx
    let pos ← draw (second fc sp ion a)
    let b ← liftB (agentOf (fun _ => pure ()) pos)
    pure (acc ++ [if compareTarget b.tgt a.tgt .min then b else a])) []
  setPop new

/-- no population is spread so much that the percentile leaves `[0, 100]`; the standard deviation adds over the dimensions, so this holds in
few dimensions only -/
def Calm (c : Cfg d K) : Prop :=
  ∀ pop : List (Agent d K Unit), pop.length = c.popSize → (∀ a ∈ pop, Feas c a.sol) → ∀ r, resistance pop = some r →
    ¬ ((r / 2) * 100 < 0 ∨ 100 < (r / 2) * 100)

theorem dt_ionized {Er : Err → Prop} (h : Calm c) {pop : List (Agent d K Unit)} (hl : pop.length = c.popSize) (hf : ∀ a ∈ pop, Feas c a.sol) :
    DT Er (ionized pop : D c _) (fun l => ∀ a ∈ l, a ∈ pop) := by
  unfold ionized
  cases hr : resistance pop with
  | none => exact DT.pure (by simp)
  | some r => exact DT.ite (fun hq => absurd hq (h pop hl hf r hr)) fun _ => DT.pure fun a ha => (List.mem_filter.1 ha).1

theorem dt_second {Er : Err → Prop} (hP : c.P.Lawful) {fc sp : K} {ion : List (Agent d K Unit)} {a : Agent d K Unit} :
    DT Er (second fc sp ion a : D c (Vec d K)) (Feas c) := by
  unfold second
  refine DT.ite (fun _ => DT.correct hP) fun _ => DT.ite (fun _ => ?_) fun _ => ?_
  · exact DT.bind DT.uniformVec' fun _ _ => DT.correct hP
  · exact DT.bind DT.uniformVec' fun _ _ => DT.correct hP

theorem wt_first (hE : c.E.Lawful) (hP : c.P.Lawful) {sp : K} {ion : List (Agent d K Unit)} {idx : Nat} :
    WT noErr (Inv.std c Unit JT) 1 2 (first sp ion idx : M c Unit Unit _) (CF c) := by
  unfold first
  refine WT.ite (fun _ => ?_) fun h => ?_
  · refine WT.bind0 (WT.draw (DT.genSolution hP)) fun x hx => WT.getTarget_std hx (by omega) ?_
    exact WT.weaken (WT.pure (CF.mk' hx)) (by omega) (by omega)
  · refine WT.bind0 (WT.draw (DT.index hE (by omega))) fun k hk => WT.bind0 (WT.draw (DT.nth_mem hk)) fun al _ => ?_
    refine WT.bind0 (WT.draw DT.normalVec) fun z _ => WT.bind0 (WT.draw (DT.correct hP)) fun pos hp => ?_
    refine WT.agentOf_std hp (DT.pure trivial) (by omega) fun a ha => WT.getTarget_std ha.2 (by omega) ?_
    exact WT.weaken (WT.pure ⟨rfl, ha.2⟩) (by omega) (by omega)

theorem framed_first {sp : K} {ion : List (Agent d K Unit)} {idx : Nat} : Framed true (first sp ion idx : M c Unit Unit _) := by
  unfold first; framed

macro_rules
  | `(tactic| fprim) => `(tactic| (at_last OriginalESO.first; exact OriginalESO.framed_first))

/-- `OriginalESO` (`mealpy/physics_based/ESO.py:12-168`) -/
def algo : Algo c Unit Unit := Algo.plain false evolve

theorem wok (hE : c.E.Lawful) (hP : c.P.Lawful) (hc : Accepted c 5) (hq : OriginalESO.Calm c) :
    (algo : Algo c Unit Unit).WOk noErr (Inv.std c Unit JT) JT JT c.popSize c.popSize 0 0 (c.popSize * 2) (c.popSize * 3) := by
  wplainalg hE hP hc evolve
  refine WT.bind0 WT.get fun s hs => ?_
  refine WT.bind0 (WT.draw (dt_ionized hq hs.len fun a ha => (hs.pop a ha).2)) fun ion _ => ?_
  refine WT.bindS (WT.iterL 2 3 (CF c) le_rfl le_rfl fun i l hi hl hcf => ?_) (by omega) fun new hn => ?_
  · refine WT.bindS (wt_first hE hP) (by omega) fun a ha => WT.bind0 (WT.draw (dt_second hP)) fun pos hp => ?_
    refine WT.agentOf_std hp (DT.pure trivial) (by omega) fun b hb => WT.weaken (WT.pure ⟨by simp [hl], fun x hx => ?_⟩) (by omega) (by omega)
    rcases List.mem_append.1 hx with h | h
    · exact hcf x h
    · rw [List.mem_singleton.1 h]; split
      · exact hb
      · exact ha
  · exact WT.weaken (WT.setPop (I := Inv.std c Unit JT) hn.1 hn.2) (by omega) (by omega)

theorem framed (hE : c.E.Lawful) (ep : Nat) : Framed true (evolve ep : M c Unit Unit Unit) := by
  unfold evolve; framed

end OriginalESO

namespace OriginalFDO

/-- `get_fit_weight` (`mealpy/swarm_based/FDO.py:69-93`) -/
def weight (wf best cur : K) : K :=
  if best = 0 then 0
  else match c.P.mm with
    | .min => if best < 0.05 * cur then 0.2 else best / cur - wf
    | .max => if best > 0.05 * cur then 0.2 else wf - best / cur

/-- `get_into_levy_bound` and `correct_solution` (`mealpy/swarm_based/FDO.py:95-113`) -/
def bound (x : Vec d K) : D c (Vec d K) := do
  let l ← levyVec 1.5 0.01 (-1)
  correct (fun j => if x j > c.P.ub j then c.P.ub j * Num.abs (l j) else if x j < c.P.lb j then c.P.lb j * Num.abs (l j) else x j)

theorem dt_bound {Er : Err → Prop} (hP : c.P.Lawful) {x : Vec d K} : DT Er (bound x : D c (Vec d K)) (Feas c) := by
  unfold bound; dgo

macro_rules
  | `(tactic| dprim) => `(tactic| (at_head OriginalFDO.bound; exact OriginalFDO.dt_bound (by assumption)))

/-- one scout bee (`mealpy/swarm_based/FDO.py:123-158`) -/
def round (wf : K) (idx : Nat) : M c Unit Unit Unit := do
  let s ← get
  let g := s.gbest.sol
  let x ← draw (nth s.pop idx)
  let fw := weight (c := c) wf s.gbest.fit x.fit
  let l ← draw (levyVec 1.5 0.01 (-1))
  let pace : Vec d K := fun j =>
    if fw = 1 then x.sol j * l j else if fw = 0 then (g j - x.sol j) * l j else (g j - x.sol j) * fw * Num.sign (l j)
  let pos ← draw (bound (fun j => x.sol j + pace j))
  let ok ← tryComp (fun _ => pure ()) idx pos
  if ok = true then pure () else do
    let pos ← draw (bound (fun j => pos j + (g j - pos j) * fw + pace j))
    let ok ← tryComp (fun _ => pure ()) idx pos
    if ok = true then pure () else do
      let l ← draw (levyVec 1.5 0.01 (-1))
      let pos ← draw (bound (fun j => x.sol j + x.sol j * l j))
      tryCompare (fun _ => pure ()) idx pos

theorem it_round (hE : c.E.Lawful) (hP : c.P.Lawful) {wf : K} {idx : Nat} (hi : idx < c.popSize) :
    IT (FA c) JT 1 3 (round wf idx : M c Unit Unit Unit) (fun _ => True) := by
  unfold round; iwalk

theorem framed_round {wf : K} {idx : Nat} : Framed true (round wf idx : M c Unit Unit Unit) := by
  unfold round; framed

macro_rules
  | `(tactic| fprim) => `(tactic| (at_last OriginalFDO.round; exact OriginalFDO.framed_round))

/-- `OriginalFDO.evolve` (`mealpy/swarm_based/FDO.py:115-158`) with its `weight_factor` -/
def evolve (wf : K) (ep : Nat) : M c Unit Unit Unit := iter c.popSize (fun idx _ => round wf idx) ()

/-- `OriginalFDO` (`mealpy/swarm_based/FDO.py:12-158`) -/
def algo (p : K) : Algo c Unit Unit := Algo.plain false (evolve p)

theorem ok (hE : c.E.Lawful) (hP : c.P.Lawful) (hc : Accepted c 5) (p : K) :
    (algo p : Algo c Unit Unit).Ok (FA c) JT JT JT c.popSize c.popSize (c.popSize * 3) := by
  plainalg hE hP hc evolve
  exact IT.pt (IT.iterS 1 3 (by omega) (by omega) fun i hi => it_round hE hP hi)

theorem framed (hE : c.E.Lawful) (p : K) (ep : Nat) : Framed true (evolve p ep : M c Unit Unit Unit) := by
  unfold evolve; framed

end OriginalFDO

namespace OriginalESOA

/-- the attributes of an egret (`mealpy/swarm_based/ESOA.py:65-86`) -/
structure Att (d : Nat) (K : Type) where
  weights : Vec d K
  lsol : Vec d K
  ltgt : Target K
  m : Vec d K
  v : Vec d K
  g : Vec d K

/-- the pseudo-gradient of an agent (`mealpy/swarm_based/ESOA.py:85,162`) -/
def grad (w x : Vec d K) (t : Target K) : Vec d K := fun j => (sumL (List.ofFn fun k => w k * x k) - t.fitness) * x j

/-- `generate_empty_agent`, `generate_agent` (`mealpy/swarm_based/ESOA.py:65-86`) -/
def mkExt (x : Vec d K) : D c (Att d K) := do
  let w ← uniformVec (fun _ => -1) (fun _ => 1)
  pure ⟨w, x, c.P.target x, fun _ => 0, fun _ => 0, grad w x (c.P.target x)⟩

/-- the gradient and the new attributes (`mealpy/swarm_based/ESOA.py:102-121`) -/
def learn (s : St c (Att d K) Unit) (x : Agent d K (Att d K)) : D c (Vec d K × Att d K) := do
  let b := s.gbest
  let pd0 : Vec d K := fun j => (x.ext.lsol j - x.sol j) * (x.ext.ltgt.fitness - x.fit)
  let pds : K := sumL (List.ofFn pd0)
  let dp : Vec d K := fun j => pd0 j / (pds * pds + Num.EPSILON) + x.ext.g j
  let cd0 : Vec d K := fun j => (b.sol j - x.sol j) * (b.fit - x.fit)
  let cds : K := sumL (List.ofFn cd0)
  let dg : Vec d K := fun j => cd0 j / (cds * cds + Num.EPSILON) + b.ext.g j
  let r1 ← randomVec
  let r2 ← randomVec
  let g0 : Vec d K := fun j => (1 - r1 j - r2 j) * x.ext.g j + r1 j * dp j + r2 j * dg j
  let g : Vec d K := fun j => g0 j / (sumL (List.ofFn g0) + Num.EPSILON)
  let m : Vec d K := fun j => 0.9 * x.ext.m j + (1 - 0.9) * g j
  let v : Vec d K := fun j => 0.99 * x.ext.v j + (1 - 0.99) * (g j * g j)
  pure (g, { x.ext with m := m, v := v, weights := fun j => x.ext.weights j - m j / (Num.sqrt (v j) + Num.EPSILON) })

/-- one egret team (`mealpy/swarm_based/ESOA.py:100-166`) -/
def round (ep idx : Nat) : M c (Att d K) Unit Unit := do
  let s ← get
  let x ← draw (nth s.pop idx)
  let (g, e) ← draw (learn s x)
  let hop : Vec d K := fun j => c.P.ub j - c.P.lb j
  let x0 ← draw (correct (fun j => x.sol j + Num.exp (-1 / (0.1 * ♯c.epoch)) * 0.1 * hop j * g j))
  let y0 ← liftB (getTarget x0)
  let r3 ← draw (uniformVec (fun _ => -Num.pi / 2) (fun _ => Num.pi / 2))
  let xn ← draw (correct (fun j => x.sol j + Num.tan (r3 j) * hop j / ♯ep * 0.5))
  let yn ← liftB (getTarget xn)
  let r1 ← draw randomVec
  let r2 ← draw randomVec
  let xm ← draw (correct (fun j => (1 - r1 j - r2 j) * x.sol j + r1 j * (x.ext.lsol j - x.sol j) + r2 j * (s.gbest.sol j - x.sol j)))
  let ym ← liftB (getTarget xm)
  let cands : List (Agent d K (Att d K)) := [⟨x0, y0, e⟩, ⟨xn, yn, e⟩, ⟨xm, ym, e⟩]
  let k := match c.P.mm with
    | .min => argminL (cands.map Agent.fit)
    | .max => argmaxL (cands.map Agent.fit)
  let b ← draw (nth cands k)
  if compareTarget b.tgt x.tgt c.P.mm then
    if compareTarget b.tgt e.ltgt c.P.mm then
      setAt idx { b with ext := { e with lsol := b.sol, ltgt := b.tgt, g := grad e.weights b.sol b.tgt } }
    else setAt idx b
  else do
    let r ← draw random
    if r < 0.3 then setAt idx b else setAt idx { x with ext := e }

theorem dt_learn {Er : Err → Prop} {s : St c (Att d K) Unit} {x : Agent d K (Att d K)} :
    DT Er (learn s x : D c (Vec d K × Att d K)) (fun _ => True) := by
  unfold learn; dgo

theorem wt_round (hE : c.E.Lawful) (hP : c.P.Lawful) {ep idx : Nat} (hi : idx < c.popSize) :
    WT noErr (Inv.std c (Att d K) JT) 3 3 (round ep idx : M c (Att d K) Unit Unit) (fun _ => True) := by
  unfold round
  refine WT.bind0 WT.get fun s hs => ?_
  have hlen : s.pop.length = c.popSize := hs.len
  refine WT.bind0 (WT.draw (DT.nth_mem (by omega))) fun x hx => ?_
  have hxc : CF c x := hs.pop x hx
  refine WT.bind0 (WT.draw dt_learn) ?_
  rintro ⟨g, e⟩ -
  refine WT.bind0 (WT.draw (DT.correct hP)) fun x0 h0 => WT.getTarget_std h0 (by omega) ?_
  refine WT.bind0 (WT.draw DT.uniformVec') fun r3 _ => WT.bind0 (WT.draw (DT.correct hP)) fun xn hn => WT.getTarget_std hn (by omega) ?_
  refine WT.bind0 (WT.draw DT.randomVec) fun r1 _ => WT.bind0 (WT.draw DT.randomVec) fun r2 _ => ?_
  refine WT.bind0 (WT.draw (DT.correct hP)) fun xm hm => WT.getTarget_std hm (by omega) ?_
  refine WT.bind0 (WT.draw (DT.nth_mem ?_)) fun b hb => ?_
  · have h3 : ([⟨x0, c.P.target x0, e⟩, ⟨xn, c.P.target xn, e⟩, ⟨xm, c.P.target xm, e⟩] : List (Agent d K (Att d K))).length = 3 := rfl
    split
    · have := argminL_lt (l := ([⟨x0, c.P.target x0, e⟩, ⟨xn, c.P.target xn, e⟩, ⟨xm, c.P.target xm, e⟩] : List (Agent d K (Att d K))).map Agent.fit) (by simp)
      simpa using this
    · have := argmaxL_lt (l := ([⟨x0, c.P.target x0, e⟩, ⟨xn, c.P.target xn, e⟩, ⟨xm, c.P.target xm, e⟩] : List (Agent d K (Att d K))).map Agent.fit) (by simp)
      simpa using this
  · have hbc : CF c b := by
      simp only [List.mem_cons, List.not_mem_nil, or_false] at hb
      rcases hb with rfl | rfl | rfl
      · exact CF.mk' h0
      · exact CF.mk' hn
      · exact CF.mk' hm
    wwalk

theorem framed_round {ep idx : Nat} : Framed true (round ep idx : M c (Att d K) Unit Unit) := by
  unfold round; framed

macro_rules
  | `(tactic| fprim) => `(tactic| (at_last OriginalESOA.round; exact OriginalESOA.framed_round))

theorem dt_mkExt {Er : Err → Prop} {x : Vec d K} {Q : Att d K → Prop} (h : ∀ e, Q e) : DT Er (mkExt x : D c (Att d K)) Q := by
  unfold mkExt
  exact DT.bind DT.uniformVec' fun w _ => DT.pure (h _)

macro_rules
  | `(tactic| dprim) => `(tactic| (at_head OriginalESOA.mkExt; exact OriginalESOA.dt_mkExt (fun _ => by dfin)))

/-- `OriginalESOA.evolve` (`mealpy/swarm_based/ESOA.py:92-166`) -/
def evolve (ep : Nat) : M c (Att d K) Unit Unit := iter c.popSize (fun idx _ => round ep idx) ()

/-- `OriginalESOA` (`mealpy/swarm_based/ESOA.py:13-166`) -/
def algo : Algo c (OriginalESOA.Att d K) Unit := Algo.full false mkExt (pure ()) evolve

theorem wok (hE : c.E.Lawful) (hP : c.P.Lawful) (hc : Accepted c 5) :
    (algo : Algo c (OriginalESOA.Att d K) Unit).WOk noErr (Inv.std c (OriginalESOA.Att d K) JT) JT JT c.popSize c.popSize 0 0 (c.popSize * 3) (c.popSize * 3) := by
  wfullalg hE hP hc evolve
  exact WT.iterU 3 3 le_rfl le_rfl fun i hi => wt_round hE hP hi

theorem framed (hE : c.E.Lawful) (ep : Nat) : Framed true (evolve ep : M c (OriginalESOA.Att d K) Unit Unit) := by
  unfold evolve; framed

end OriginalESOA

namespace DevSOA

/-- the spiral around the best (`mealpy/bio_based/SOA.py:68-80,149-161`): the factor and the distance -/
def spiral (fc : K) (ep : Nat) (g x : Vec d K) : D c (Vec d K) := do
  let A : K := fc - ♯ep * fc / ♯c.epoch
  let u ← random
  let k ← uniform 0 (2 * Num.pi)
  let r : K := Num.exp k
  pure (fun j => r * Num.cos k * (r * Num.sin k) * (r * k) * Num.abs (A * x j + 2 * (A * A) * u * (g j - x j)))

theorem dt_spiral {Er : Err → Prop} {fc : K} {ep : Nat} {g x : Vec d K} : DT Er (spiral fc ep g x : D c (Vec d K)) (fun _ => True) := by
  unfold spiral; dgo

macro_rules
  | `(tactic| dprim) => `(tactic| (at_head DevSOA.spiral; exact DevSOA.dt_spiral))

/-- `DevSOA.evolve` (`mealpy/bio_based/SOA.py:61-90`) with its `fc` -/
def evolve (fc : K) (ep : Nat) : M c Unit Unit Unit :=
  greedyLoop c.popSize (fun s idx => do
    let x ← nth s.pop idx
    let w ← spiral fc ep s.gbest.sol x.sol
    let z ← normal 0 1
    let pos ← correct (fun j => w j + z * s.gbest.sol j)
    pure (pos, ()))

/-- `DevSOA` (`mealpy/bio_based/SOA.py:12-90`) -/
def algo (p : K) : Algo c Unit Unit := Algo.plain false (evolve p)

theorem ok (hE : c.E.Lawful) (hP : c.P.Lawful) (hc : Accepted c 5) (p : K) :
    (algo p : Algo c Unit Unit).Ok (FA c) JT JT JT c.popSize c.popSize c.popSize := by
  plainalg hE hP hc evolve
  iauto

theorem framed (hE : c.E.Lawful) (p : K) (ep : Nat) : Framed true (evolve p ep : M c Unit Unit Unit) := by
  unfold evolve; framed

end DevSOA

namespace OriginalSOA

/-- `OriginalSOA.evolve` (`mealpy/bio_based/SOA.py:142-168`) with its `fc` -/
def evolve (fc : K) (ep : Nat) : M c Unit Unit Unit := do
  let new ← buildEval c.popSize (fun s idx => do
    let x ← nth s.pop idx
    let w ← DevSOA.spiral fc ep s.gbest.sol x.sol
    let pos ← correct (fun j => w j + s.gbest.sol j)
    pure (pos, ()))
  setPop new

/-- `OriginalSOA` (`mealpy/bio_based/SOA.py:93-168`) -/
def algo (p : K) : Algo c Unit Unit := Algo.plain false (evolve p)

theorem ok (hE : c.E.Lawful) (hP : c.P.Lawful) (hc : Accepted c 5) (p : K) :
    (algo p : Algo c Unit Unit).Ok (FA c) JT JT JT c.popSize c.popSize c.popSize := by
  plainalg hE hP hc evolve
  refine RT.pt (RT.bindS (RJ.buildEval hE (by mkgo)) (by omega) fun new hn => ?_)
  exact RT.weaken (RT.setPop hn.1 (fun a ha => by simpa using ha) fun a ha => ⟨a, by simpa using ha, NoWorse.rfl⟩) (by omega) (by omega)

theorem framed (hE : c.E.Lawful) (p : K) (ep : Nat) : Framed true (evolve p ep : M c Unit Unit Unit) := by
  unfold evolve; framed

end OriginalSOA

namespace OriginalCDDO

/-- the parameters (`mealpy/human_based/CDDO.py:83-84`) -/
structure Params (K : Type) where
  pattern : Nat
  cr : K

/-- level rate, skill rate, the personal bests and the golden ratios (`mealpy/human_based/CDDO.py:88-100`) -/
structure Vars (d : Nat) (K : Type) where
  lr : K
  sr : K
  loc : List (Agent d K Unit)
  gr : List K

/-- before the main loop -/
def Vars.init : D c (Vars d K) := pure ⟨0, 0, [], []⟩

/-- `before_main_loop` (`mealpy/human_based/CDDO.py:88-100`) -/
def before (s : St c Unit (Vars d K)) : D c (Vars d K) := do
  let lr ← uniform 0.1 1
  let sr ← uniform 0.1 1
  let gr ← repM c.popSize (fun idx => do
    let p1 ← index d
    let p2 ← index d
    let x ← nth s.pop idx
    pure (if Vec.at x.sol p1 = 0 then Vec.at x.sol p2 else Vec.at x.sol p1 + Vec.at x.sol p2 / Vec.at x.sol p1))
  pure ⟨lr, sr, s.pop, gr⟩

/-- one drawing (`mealpy/human_based/CDDO.py:112-128`) -/
def stroke (p : Params K) (s : St c Unit (Vars d K)) (pat : List (Agent d K Unit)) (idx : Nat) (rates : K × K) : D c (Vec d K × K × K) := do
  let hp ← integers (Num.trunc (Vec.at c.P.lb 0)) (Num.trunc (Vec.at c.P.ub 0 + 1))
  let pp ← index d
  let x ← nth s.pop idx
  let loc ← nth s.ext.loc idx
  let gr ← nth s.ext.gr idx
  if Vec.at x.sol pp ≤ Num.ofInt hp then do
    let r1 ← randomVec
    let r2 ← randomVec
    let lr ← integers 6 11
    let sr ← integers 6 11
    let pos ← correct (fun j => gr + rates.2 * r1 j * (loc.sol j - x.sol j) + rates.1 * r2 j * (s.gbest.sol j - x.sol j))
    pure (pos, Num.ofInt lr / 10, Num.ofInt sr / 10)
  else if 1.5 < gr ∧ gr < 2 then do
    let k ← index p.pattern
    let y ← nth pat k
    let lr ← integers 0 6
    let sr ← integers 0 6
    let pos ← correct (fun j => y.sol j - p.cr * loc.sol j)
    pure (pos, Num.ofInt lr / 10, Num.ofInt sr / 10)
  else do
    let pos ← correct x.sol
    pure (pos, rates.1, rates.2)

/-- all drawings of an epoch -/
def strokes (p : Params K) (s : St c Unit (Vars d K)) (pat : List (Agent d K Unit)) : D c (List (Vec d K × Unit) × K × K) :=
  iter c.popSize (fun idx acc => do
    let (pos, r) ← stroke p s pat idx acc.2
    pure (acc.1 ++ [(pos, ())], r)) ([], s.ext.lr, s.ext.sr)

/-- `OriginalCDDO.evolve` (`mealpy/human_based/CDDO.py:102-136`). A drawing reads only its own slot of the population, so the positions are
made before they are evaluated, also in `single` mode. -/
def evolve (p : Params K) (ep : Nat) : M c Unit (Vars d K) Unit := do
  let s ← get
  let pat ← draw (bestAgents s.pop p.pattern)
  let (pend, lr, sr) ← draw (strokes p s pat)
  let new ← evalAll pend
  setPop new
  modExt (fun y => { y with lr := lr, sr := sr, loc := zipGreedy c.P.mm y.loc new })

/-- the lists have one entry per agent -/
def Sized (c : Cfg d K) (y : Vars d K) : Prop := y.loc.length = c.popSize ∧ y.gr.length = c.popSize

theorem dt_stroke (hE : c.E.Lawful) (hP : c.P.Lawful) (hd : 0 < d) {p : Params K} (hp : 1 ≤ p.pattern ∧ p.pattern ≤ c.popSize)
    (hb : Num.trunc (Vec.at c.P.lb 0) < Num.trunc (Vec.at c.P.ub 0 + 1)) {s : St c Unit (Vars d K)} {pat : List (Agent d K Unit)}
    (hpat : pat.length = p.pattern) (hl : s.pop.length = c.popSize) (hy : Sized c s.ext) {idx : Nat} (hi : idx < c.popSize) {r : K × K} :
    DT noErr (stroke p s pat idx r : D c (Vec d K × K × K)) (fun q => Feas c q.1) := by
  unfold stroke
  obtain ⟨hy1, hy2⟩ := hy
  refine DT.bind (DT.integers hE hb) fun hp _ => DT.bind (DT.index hE hd) fun pp _ => DT.bind (DT.nth_mem (by omega)) fun x _ => ?_
  refine DT.bind (DT.nth_mem (by omega)) fun loc _ => DT.bind (DT.nth_mem (by omega)) fun gr _ => ?_
  refine DT.ite (fun _ => ?_) fun _ => DT.ite (fun _ => ?_) fun _ => ?_
  · refine DT.bind DT.randomVec fun r1 _ => DT.bind DT.randomVec fun r2 _ => ?_
    refine DT.bind (DT.integers hE (by omega)) fun lr _ => DT.bind (DT.integers hE (by omega)) fun sr _ => ?_
    exact DT.bind (DT.correct hP) fun pos h => DT.pure h
  · refine DT.bind (DT.index hE (by omega)) fun k hk => DT.bind (DT.nth_mem (by omega)) fun y _ => ?_
    refine DT.bind (DT.integers hE (by omega)) fun lr _ => DT.bind (DT.integers hE (by omega)) fun sr _ => ?_
    exact DT.bind (DT.correct hP) fun pos h => DT.pure h
  · exact DT.bind (DT.correct hP) fun pos h => DT.pure h

theorem dt_strokes (hE : c.E.Lawful) (hP : c.P.Lawful) (hd : 0 < d) {p : Params K} (hp : 1 ≤ p.pattern ∧ p.pattern ≤ c.popSize)
    (hb : Num.trunc (Vec.at c.P.lb 0) < Num.trunc (Vec.at c.P.ub 0 + 1)) {s : St c Unit (Vars d K)} {pat : List (Agent d K Unit)}
    (hpat : pat.length = p.pattern) (hl : s.pop.length = c.popSize) (hy : Sized c s.ext) :
    DT noErr (strokes p s pat : D c _) (fun q => q.1.length = c.popSize ∧ ∀ z ∈ q.1, MkOk (FA c) c z) := by
  unfold strokes
  refine DT.iter (fun i (q : List (Vec d K × Unit) × K × K) => q.1.length = i ∧ ∀ z ∈ q.1, MkOk (FA c) c z) _ (by simp) fun i q hi hq => ?_
  refine DT.bind (dt_stroke hE hP hd hp hb hpat hl hy hi) ?_
  rintro ⟨pos, r⟩ hpos
  refine DT.pure ⟨by simp [hq.1], fun z hz => ?_⟩
  rcases List.mem_append.1 hz with h | h
  · exact hq.2 z h
  · rw [List.mem_singleton.1 h]; exact FA.mkOk hpos

theorem dt_before (hE : c.E.Lawful) (hd : 0 < d) {s : St c Unit (Vars d K)} (hl : s.pop.length = c.popSize) :
    DT noErr (before s : D c (Vars d K)) (Sized c) := by
  unfold before
  refine DT.bind DT.uniform' fun lr _ => DT.bind DT.uniform' fun sr _ => DT.bind (DT.repMT fun i hi => ?_) fun gr hgr => DT.pure ⟨hl, hgr⟩
  dgo

/-- `OriginalCDDO` (`mealpy/human_based/CDDO.py:11-136`) -/
def algo (p : Params K) : Algo c Unit (OriginalCDDO.Vars d K) := Algo.pre false (fun _ => pure ()) Vars.init before (evolve p)

theorem ok (hE : c.E.Lawful) (hP : c.P.Lawful) (hc : Accepted c 5) (p : Params K) (hd : 0 < d) (hp : 1 ≤ p.pattern ∧ p.pattern ≤ c.popSize) (hb : Num.trunc (Vec.at c.P.lb 0) < Num.trunc (Vec.at c.P.ub 0 + 1)) :
    (algo p : Algo c Unit (OriginalCDDO.Vars d K)).Ok (FA c) JT JT (OriginalCDDO.Sized c) c.popSize c.popSize c.popSize := by
  have hpop := hc.pop
  unfold algo
  refine Algo.pre_ok (J := (OriginalCDDO.Sized c)) hE hP (fun x hx => by dgo) (by unfold Vars.init; dgo) (by exact fun s hs => dt_before hE hd hs) (fun ep hep1 hep2 => ?_)
  unfold evolve
  refine RT.pt (RT.bind0 RJ.get fun s hs => ?_)
  have hlen := hs.toGoodPop.len
  refine RT.bind0 (RJ.draw (DT.bestAgents hE)) fun pat hpat => RT.bind0 (RJ.draw (dt_strokes hE hP hd hp hb (by omega) hlen hs.toGoodPop.ext)) ?_
  rintro ⟨pend, lr, sr⟩ ⟨hl, hpd⟩
  have hl' : pend.length = c.popSize := hl
  refine RT.bindS (RJ.evalAll hE hpd) (by omega) fun new hn => ?_
  refine RT.thenIT (l1 := 0) (h1 := 0) (RT.setPop (by omega) (fun a ha => by simpa using ha) fun a ha => ⟨a, by simpa using ha, NoWorse.rfl⟩) (by omega) fun _ _ => ?_
  refine IT.weaken (IT.modExt fun y hy => ⟨?_, hy.2⟩) (by omega) (by omega)
  rw [zipGreedy_length, hy.1, hn.1, hl']; omega

theorem framed (hE : c.E.Lawful) (p : Params K) (ep : Nat) : Framed true (evolve p ep : M c Unit (OriginalCDDO.Vars d K) Unit) := by
  unfold evolve; framed

end OriginalCDDO

namespace OriginalDBO

/-- the parameters (`mealpy/swarm_based/DBO.py:65-67`) -/
structure Params (K : Type) where
  kk : K
  bb : K
  ss : K

/-- `initialization` (`mealpy/swarm_based/DBO.py:74-79`): the previous positions of a first run -/
def before (s : St c Unit (List (Vec d K))) : D c (List (Vec d K)) := pure (s.pop.map Agent.sol)

/-- one beetle (`mealpy/swarm_based/DBO.py:110-149`) -/
def crawl (p : Params K) (ep : Nat) (best worst : Vec d K) (idx : Nat) : M c Unit (List (Vec d K)) (Vec d K × Unit) := do
  let s ← get
  let g := s.gbest.sol
  let x ← draw (nth s.pop idx)
  let pr ← draw (nth s.ext idx)
  let nRoll := c.popSize / 4
  let nBreed := c.popSize / 4 + nRoll
  let nForage := c.popSize / 4 + nBreed
  let rr : K := 1 - ♯ep / ♯c.epoch
  let lbs : Vec d K := fun j => max (best j * (1 - rr)) (c.P.lb j)
  let ubs : Vec d K := fun j => min (best j * (1 + rr)) (c.P.ub j)
  let lbb : Vec d K := fun j => max (g j * (1 - rr)) (c.P.lb j)
  let ubb : Vec d K := fun j => min (g j * (1 + rr)) (c.P.ub j)
  let clamp : Vec d K → Vec d K := fun y j => min (max (y j) (c.P.lb j)) (c.P.ub j)
  let pos ← draw (if idx ≤ nRoll then do
      let de ← random
      let u ← random
      if de < 0.9 then
        correct (clamp (fun j => x.sol j + (if u > 0.5 then 1 else -1) * p.kk * pr j + p.bb * Num.abs (x.sol j - worst j)))
      else
        let th : K := u * Num.pi
        if Num.abs th > 1e-6 ∧ Num.abs (th - Num.pi / 2) > 1e-6 ∧ Num.abs (th - Num.pi) > 1e-6 then
          correct (clamp (fun j => x.sol j + Num.tan th * Num.abs (x.sol j - pr j)))
        else correct (clamp x.sol)
    else if idx ≤ nBreed then do
      let b1 ← randomVec
      let b2 ← randomVec
      correct (fun j => min (max (best j + b1 j * (x.sol j - lbs j) + b2 j * (x.sol j - ubs j)) (lbs j)) (ubs j))
    else if idx ≤ nForage then do
      let c1 ← normal 0 1
      let c2 ← randomVec
      correct (clamp (fun j => x.sol j + c1 * (x.sol j - lbb j) + c2 j * (x.sol j - ubb j)))
    else do
      let z ← normalVec 0 1
      correct (clamp (fun j => g j + p.ss * z j * (Num.abs (x.sol j - best j) + Num.abs (x.sol j - g j)))))
  modExt (fun y => y.set idx x.sol)
  pure (pos, ())

/-- `OriginalDBO.evolve` (`mealpy/swarm_based/DBO.py:81-158`) -/
def evolve (p : Params K) (ep : Nat) : M c Unit (List (Vec d K)) Unit := do
  let s ← get
  let best ← draw (bestAgent s.pop)
  let worst ← draw (worstAgent s.pop)
  greedyLoopM false c.popSize (crawl p ep best.sol worst.sol)

theorem it_crawl (hE : c.E.Lawful) (hP : c.P.Lawful) {p : Params K} {ep : Nat} {best worst : Vec d K} {idx : Nat} (hi : idx < c.popSize) :
    IT (FA c) (fun y : List (Vec d K) => y.length = c.popSize) 0 0 (crawl p ep best worst idx : M c Unit (List (Vec d K)) _) (MkOk (FA c) c) := by
  unfold crawl
  refine IT.bind0 IT.get fun s hs => ?_
  have hlen := hs.toGoodPop.len
  have hext : s.ext.length = c.popSize := hs.toGoodPop.ext
  refine IT.bind0 (IT.draw (DT.nth_mem (by omega))) fun x _ => IT.bind0 (IT.draw (DT.nth_mem (by omega))) fun pr _ => ?_
  refine IT.bind0 (IT.draw (R := Feas c) ?_) fun pos hpos => ?_
  · refine DT.ite (fun _ => ?_) fun _ => DT.ite (fun _ => ?_) fun _ => DT.ite (fun _ => ?_) fun _ => ?_
    · refine DT.bind DT.random' fun de _ => DT.bind DT.random' fun u _ => DT.ite (fun _ => DT.correct hP) fun _ => ?_
      exact DT.ite (fun _ => DT.correct hP) fun _ => DT.correct hP
    · exact DT.bind DT.randomVec fun _ _ => DT.bind DT.randomVec fun _ _ => DT.correct hP
    · exact DT.bind DT.normal fun _ _ => DT.bind DT.randomVec fun _ _ => DT.correct hP
    · exact DT.bind DT.normalVec fun _ _ => DT.correct hP
  · refine IT.bind0 (IT.modExt fun y hy => by rw [List.length_set]; exact hy) fun _ _ => IT.pure (FA.mkOk hpos)

theorem framed_crawl {p : Params K} {ep : Nat} {best worst : Vec d K} {idx : Nat} :
    Framed true (crawl p ep best worst idx : M c Unit (List (Vec d K)) _) := by
  unfold crawl; framed

macro_rules
  | `(tactic| fprim) => `(tactic| (at_last OriginalDBO.crawl; exact OriginalDBO.framed_crawl))

/-- `OriginalDBO` (`mealpy/swarm_based/DBO.py:12-158`) -/
def algo (p : Params K) : Algo c Unit (List (Vec d K)) := Algo.pre true (fun _ => pure ()) (pure []) before (evolve p)

theorem ok (hE : c.E.Lawful) (hP : c.P.Lawful) (hc : Accepted c 5) (p : Params K) :
    (algo p : Algo c Unit (List (Vec d K))).Ok (FA c) JT JT (fun y : List (Vec d K) => y.length = c.popSize) c.popSize c.popSize c.popSize := by
  have hpop := hc.pop
  unfold algo
  refine Algo.pre_ok (J := (fun y : List (Vec d K) => y.length = c.popSize)) hE hP (fun x hx => by dgo) (by dgo) (by intro s hs; exact DT.pure (by rw [List.length_map]; exact hs)) (fun ep hep1 hep2 => ?_)
  unfold evolve
  refine IT.pt (IT.bind0 IT.get fun s hs => ?_)
  have hlen := hs.toGoodPop.len
  refine IT.bind0 (IT.draw (by dprim)) fun best _ => IT.bind0 (IT.draw (by dprim)) fun worst _ => ?_
  exact IT.weaken (IT.greedyLoopM hE fun i hi => it_crawl hE hP hi) (by omega) (by omega)

theorem framed (hE : c.E.Lawful) (p : Params K) (ep : Nat) : Framed true (evolve p ep : M c Unit (List (Vec d K)) Unit) := by
  unfold evolve; framed

end OriginalDBO

namespace OriginalSOO

/-- `OriginalSOO.evolve` (`mealpy/physics_based/SOO.py:85-147`), `initial_period = 3` -/
def evolve (ep : Nat) : M c Unit Unit Unit := do
  let caf : K := 2 * Num.pi / (3 + 0.001 * ♯ep)
  let sc : K := 2 * (1 - ♯ep / ♯c.epoch)
  greedyLoop c.popSize (fun s idx => do
    let g := s.gbest.sol
    let r1 ← randomVec
    let r2 ← randomVec
    let r3 ← randomVec
    let x ← nth s.pop idx
    let pos ← correct (fun j =>
      let o1 := sc * (caf * r1 j - 1) * (x.sol j - Num.abs (r1 j * Num.sin (r2 j) * Num.abs (r3 j * g j)))
      let o2 := sc * (caf * r1 j - 1) * (x.sol j - Num.abs (r1 j * Num.cos (r2 j) * Num.abs (r3 j * g j)))
      r3 j * ((g j - r1 j * r3 j * o1) + (g j - r2 j * r3 j * o2)) / 2)
    pure (pos, ()))
  let s ← get
  let (b1, b2, b3) ← draw (best3 s.pop)
  greedyLoop c.popSize (fun s idx => do
    let (i1, i2, i3) ← choose3Without c.popSize [idx]
    let rf ← random
    let x1 ← nth s.pop i1
    let x2 ← nth s.pop i2
    let x3 ← nth s.pop i3
    let x ← nth s.pop idx
    let u ← randomVec
    let pos ← correct (fun j => if u j ≤ 0.5 then meanL [b1.sol j, b2.sol j, b3.sol j] +
      0.5 * (Num.sin (rf * Num.pi) * (x1.sol j - x2.sol j) + Num.cos ((1 - rf) * Num.pi) * (x1.sol j - x3.sol j)) else x.sol j)
    pure (pos, ()))

/-- `OriginalSOO` (`mealpy/physics_based/SOO.py:12-147`) -/
def algo : Algo c Unit Unit := Algo.plain false evolve

theorem ok (hE : c.E.Lawful) (hP : c.P.Lawful) (hc : Accepted c 5) :
    (algo : Algo c Unit Unit).Ok (FA c) JT JT JT c.popSize (c.popSize + c.popSize) (c.popSize + c.popSize) := by
  plainalg hE hP hc evolve
  iauto

theorem framed (hE : c.E.Lawful) (ep : Nat) : Framed true (evolve ep : M c Unit Unit Unit) := by
  unfold evolve; framed

end OriginalSOO

namespace OriginalGJA

/-- the parameters (`mealpy/swarm_based/GJA.py:77-79`) -/
structure Params (K : Type) where
  b0 : K
  b1 : K
  ar : K

/-- one jump (`mealpy/swarm_based/GJA.py:106-134`); `ids` is the order of the population at the start of the epoch -/
def jump (p : Params K) (ep : Nat) (ids : List Nat) (s : St c Unit (List (Vec d K))) (idx : Nat) : D c (Vec d K × Unit) := do
  let g := s.gbest.sol
  let tr : K := ♯ep / ♯c.epoch
  let cosh : K → K := fun x => (Num.exp x + Num.exp (-x)) / 2
  let beta : K := p.b0 - (p.b0 - p.b1) * ((cosh (tr * 5) - 1) / (cosh 5 - 1))
  let alpha : K := beta * p.ar
  let lin : K := if c.epoch ≤ 1 then 1 else 1 - ♯(ep - 1) / ♯(c.epoch - 1)
  let decay : K := lin * lin
  let rb : Vec d K := fun j => c.P.ub j - c.P.lb j
  let x ← nth s.pop idx
  let u ← random
  let step ← (if u < 0.5 then levyVec beta alpha (-1) else do
    let z ← normalVec 0 1
    pure (fun j => z j * alpha * rb j / Num.sqrt ♯ep) : D c (Vec d K))
  let y1 : Vec d K := fun j => x.sol j + step j
  let y2 ← (if ep % 3 = 0 then do
    let r ← randomVec
    pure (fun j => y1 j + 0.3 * r j * Num.sign (g j - y1 j) * rb j)
    else pure y1 : D c (Vec d K))
  let u2 ← random
  let k := min (Num.ceil (u2 * u2 * ♯c.popSize) - 1).toNat (c.popSize - 1)
  let i ← nth ids k
  let sc ← nth s.pop i
  let y3 : Vec d K := fun j => y2 j + 0.5 * decay * (sc.sol j - y2 j)
  if normV (fun j => y3 j - g j) > 0.1 * normV rb then do
    let m ← randomVec
    let z ← normalVec 0 1
    let pos ← correct (fun j => if m j < 1 - decay then g j + z j * rb j / ♯ep else y3 j)
    pure (pos, ())
  else do
    let pos ← correct y3
    pure (pos, ())

/-- `np.allclose(pos, m, rtol=1e-10)` (`mealpy/swarm_based/GJA.py:154`) -/
def close (x m : Vec d K) : Bool :=
  (List.finRange d).all (fun j => decide (Num.abs (x j - m j) ≤ 1e-8 + 1e-10 * Num.abs (m j)))

/-- remember positions (`mealpy/swarm_based/GJA.py:152-156`) -/
def remember (pop : List (Agent d K Unit)) (top : List Nat) (mem : List (Vec d K)) : List (Vec d K) :=
  ((picks pop top).foldl (fun mem a => if mem.any (close a.sol) then mem else mem ++ [a.sol]) mem).take 5

/-- `OriginalGJA.evolve` (`mealpy/swarm_based/GJA.py:89-167`). The worst agents are those of the start of the epoch. -/
def evolve (p : Params K) (ep : Nat) : M c Unit (List (Vec d K)) Unit := do
  let s ← get
  let ids := (getSorted c.E.argsort s.pop c.P.mm).2
  greedyLoop c.popSize (jump p ep ids)
  if ep % 5 = 0 then do
    let s ← get
    modExt (fun mem => remember s.pop (ids.take 5) mem)
    let s ← get
    let tail := ids.drop (c.popSize - max 1 ((c.popSize + 9) / 10))
    let worst := match c.P.mm with
      | .min => tail
      | .max => tail.reverse
    if 0 < s.ext.length then
      iter worst.length (fun k _ => do
        let i ← draw (nth worst k)
        let m ← draw (index s.ext.length)
        let x ← draw (nth s.ext m)
        let pos ← draw (correct x)
        let a ← liftB (agentOf (fun _ => pure ()) pos)
        setAt i a) ()
    else pure ()
  else pure ()

/-- `OriginalGJA` (`mealpy/swarm_based/GJA.py:12-167`) -/
def algo (p : Params K) : Algo c Unit (List (Vec d K)) := Algo.full false (fun _ => pure ()) (pure []) (evolve p)

theorem wok (hE : c.E.Lawful) (hP : c.P.Lawful) (hc : Accepted c 5) (p : Params K) :
    (algo p : Algo c Unit (List (Vec d K))).WOk noErr (Inv.std c Unit JT) JT JT c.popSize c.popSize 0 0 c.popSize (c.popSize + c.popSize) := by
  wfullalg hE hP hc evolve
  refine WT.bind0 WT.get fun s hs => ?_
  have hlen : s.pop.length = c.popSize := hs.len
  have hidl : (getSorted c.E.argsort s.pop c.P.mm).2.length = c.popSize := by rw [sorted_idx_length hE, hlen]
  have hidm : ∀ i ∈ (getSorted c.E.argsort s.pop c.P.mm).2, i < c.popSize := fun i hi => by rw [← hlen]; exact sorted_idx_lt hE _ i hi
  refine WT.bindS (WT.greedyLoop hE (fun _ h => h) fun s' i hs' hl hi => ?_) (by omega) fun _ _ => ?_
  · unfold jump
    refine DT.bind (DT.nth_mem (by omega)) fun x _ => DT.bind DT.random' fun u _ => DT.bindT (by dgo) fun step => ?_
    refine DT.bindT (by dgo) fun y2 => DT.bind DT.random' fun u2 _ => DT.bind (DT.nth_mem (by omega)) fun k hk => ?_
    refine DT.bind (DT.nth_mem (by have := hidm k hk; omega)) fun sc _ => ?_
    dgo
  · refine WT.ite (fun _ => ?_) fun _ => WT.weaken (WT.pure trivial) (by omega) (by omega)
    refine WT.bind0 WT.get fun s1 hs1 => WT.bind0 (WT.modExt fun _ _ => trivial) fun _ _ => WT.bind0 WT.get fun s2 hs2 => ?_
    refine WT.ite (fun hm => ?_) fun _ => WT.weaken (WT.pure trivial) (by omega) (by omega)
    have hw : ∀ w : List Nat, (∀ i ∈ w, i < c.popSize) → w.length ≤ c.popSize → WT noErr (Inv.std c Unit JT) (c.popSize - c.popSize) (c.popSize + c.popSize - c.popSize)
        (iter w.length (fun k _ => do
          let i ← draw (nth w k)
          let m ← draw (index s2.ext.length)
          let x ← draw (nth s2.ext m)
          let pos ← draw (correct x)
          let a ← liftB (agentOf (fun _ => pure ()) pos)
          setAt i a) () : M c Unit (List (Vec d K)) Unit) (fun _ => True) := fun w hwm hwl => by
      refine WT.iterU 1 1 (by omega) (by omega) fun k hk => ?_
      refine WT.bind0 (WT.draw (DT.nth_mem hk)) fun i hi => WT.bind0 (WT.draw (DT.index hE hm)) fun m hm' => ?_
      have := hwm i hi
      refine WT.bind0 (WT.draw (DT.nth_mem hm')) fun x _ => WT.bind0 (WT.draw (DT.correct hP)) fun pos hpos => ?_
      refine WT.agentOf_std hpos (DT.pure trivial) (by omega) fun a ha => ?_
      exact WT.weaken (WT.setAt (by wsz) (Inv.std_ag ha)) (by omega) (by omega)
    have hdl : ((getSorted c.E.argsort s.pop c.P.mm).2.drop (c.popSize - max 1 ((c.popSize + 9) / 10))).length ≤ c.popSize := by
      rw [List.length_drop]; omega
    refine hw _ (fun i hi => ?_) ?_
    · split at hi
      · exact hidm i (List.mem_of_mem_drop hi)
      · exact hidm i (List.mem_of_mem_drop (List.mem_reverse.1 hi))
    · split
      · exact hdl
      · rw [List.length_reverse]; exact hdl

theorem framed (hE : c.E.Lawful) (p : Params K) (ep : Nat) : Framed true (evolve p ep : M c Unit (List (Vec d K)) Unit) := by
  unfold evolve; framed

end OriginalGJA

namespace OriginalArchOA

/-- the parameters (`mealpy/physics_based/ArchOA.py:80-85`); `c1` occurs in dead code only -/
structure Params (K : Type) where
  c2 : K
  c3 : K
  c4 : K
  accMax : K
  accMin : K

/-- density, volume and acceleration (`mealpy/physics_based/ArchOA.py:89-95`) -/
structure Att (d : Nat) (K : Type) where
  den : Vec d K
  vol : Vec d K
  acc : Vec d K

/-- `generate_empty_agent` (`mealpy/physics_based/ArchOA.py:89-95`) -/
def mkExt (x : Vec d K) : D c (Att d K) := do
  let den ← uniformVec c.P.lb c.P.ub
  let vol ← uniformVec c.P.lb c.P.ub
  let u ← uniformVec c.P.lb c.P.ub
  pure ⟨den, vol, fun j => c.P.lb j + u j * (c.P.ub j - c.P.lb j)⟩

theorem dt_mkExt {Er : Err → Prop} {x : Vec d K} {Q : Att d K → Prop} (h : ∀ e, Q e) : DT Er (mkExt x : D c (Att d K)) Q := by
  unfold mkExt
  exact DT.bind DT.uniformVec' fun _ _ => DT.bind DT.uniformVec' fun _ _ => DT.bind DT.uniformVec' fun _ _ => DT.pure (h _)

macro_rules
  | `(tactic| dprim) => `(tactic| (at_head OriginalArchOA.mkExt; exact OriginalArchOA.dt_mkExt (fun _ => by dfin)))

/-- new densities, volumes and raw accelerations (`mealpy/physics_based/ArchOA.py:110-123`). `tf = exp(epoch / self.epoch)` is at least one,
so the branches for `tf <= 0.5` never run and are left out. -/
def atts (s : St c (Att d K) Unit) : D c (List (Att d K)) :=
  repM c.popSize (fun idx => do
    let b := s.gbest.ext
    let x ← nth s.pop idx
    let u1 ← random
    let u2 ← random
    let den : Vec d K := fun j => x.ext.den j + u1 * (b.den j - x.ext.den j)
    let vol : Vec d K := fun j => x.ext.vol j + u2 * (b.vol j - x.ext.vol j)
    pure ⟨den, vol, fun j => (b.den j + b.vol j * b.acc j) / (den j * vol j)⟩)

/-- the new position before it is corrected (`mealpy/physics_based/ArchOA.py:131-141`) -/
def move (p : Params K) (ep : Nat) (s : St c (Att d K) Unit) (idx : Nat) : D c (Vec d K × Att d K) := do
  let g := s.gbest.sol
  let x ← nth s.pop idx
  let u ← random
  let f : K := if 2 * u - p.c4 ≤ 0.5 then 1 else -1
  let t : K := p.c3 * Num.exp (♯ep / ♯c.epoch)
  let ddf : K := Num.exp (1 - ♯ep / ♯c.epoch) - ♯ep / ♯c.epoch
  let r ← random
  pure (fun j => g j + f * p.c2 * r * x.ext.acc j * ddf * (t * g j - x.sol j), x.ext)

/-- `OriginalArchOA.evolve` (`mealpy/physics_based/ArchOA.py:97-149`). In `single` mode the position is corrected for the agent but the
target is that of the uncorrected position. -/
def evolve (p : Params K) (ep : Nat) : M c (Att d K) Unit Unit := do
  let s ← get
  let l ← draw (atts s)
  let all : List K := l.flatMap (fun e => List.ofFn e.acc)
  let lo := minL all
  let hi := maxL all
  let l' : List (Att d K) := l.map (fun e => { e with acc := fun j => p.accMax * (e.acc j - lo) / (hi - lo + Num.EPSILON) + p.accMin })
  mapExt (fun i a => l'.getD i a.ext)
  if c.swarmLike = true then
    greedyLoop c.popSize (fun s idx => do
      let (y, e) ← move p ep s idx
      let pos ← correct y
      pure (pos, e))
  else
    iter c.popSize (fun idx _ => do
      let s ← get
      let (y, e) ← draw (move p ep s idx)
      let pos ← draw (correct y)
      let t ← liftB (getTarget y)
      let old ← popAt idx
      setAt idx (getBetterAgent ⟨pos, t, e⟩ old c.P.mm)) ()

theorem dt_move {Er : Err → Prop} {p : Params K} {ep : Nat} {s : St c (Att d K) Unit} (hl : s.pop.length = c.popSize) {idx : Nat}
    (hi : idx < c.popSize) : DT Er (move p ep s idx : D c (Vec d K × Att d K)) (fun _ => True) := by
  unfold move; dgo

theorem framed_move_single {p : Params K} {ep : Nat} : Framed true (iter c.popSize (fun idx _ => do
      let s ← get
      let (y, e) ← draw (move p ep s idx)
      let pos ← draw (correct y)
      let t ← liftB (getTarget y)
      let old ← popAt idx
      setAt idx (getBetterAgent ⟨pos, t, e⟩ old c.P.mm)) () : M c (Att d K) Unit Unit) := by
  framed

/-- `OriginalArchOA` (`mealpy/physics_based/ArchOA.py:13-149`) -/
def algo (p : Params K) : Algo c (OriginalArchOA.Att d K) Unit := Algo.full false mkExt (pure ()) (evolve p)

theorem ok (hE : c.E.Lawful) (hP : c.P.Lawful) (hc : Accepted c 5) (p : Params K) (hsw : c.swarmLike = true) :
    (algo p : Algo c (OriginalArchOA.Att d K) Unit).Ok (FA c) JT JT JT c.popSize c.popSize c.popSize := by
  fullalg hE hP hc evolve
  refine IT.pt (IT.bind0 IT.get fun s hs => ?_)
  have hlen := hs.toGoodPop.len
  refine IT.bindD (by unfold atts; exact DT.mono (DT.repMT fun i hi => by dgo) fun _ _ => trivial) fun l => ?_
  refine IT.bind0 (IT.mapExt fun i a ha => ha) fun _ _ => ?_
  rw [if_pos hsw]
  refine IT.greedyLoop hE fun s i hs hl hi => DT.bind (dt_move hl hi) ?_
  rintro ⟨y, e⟩ -
  exact DT.bind (DT.correct hP) fun pos hpos => DT.pure (FA.mkOk hpos)

theorem framed (hE : c.E.Lawful) (p : Params K) (ep : Nat) : Framed true (evolve p ep : M c (OriginalArchOA.Att d K) Unit Unit) := by
  unfold evolve; framed

end OriginalArchOA

namespace OriginalAPO

/-- the parameters (`mealpy/bio_based/APO.py:64-65`) -/
structure Params (K : Type) where
  pf : K
  pairs : Nat

/-- the pairs of autotrophic feeding (`mealpy/bio_based/APO.py:107-120`) -/
def near (idx : Nat) : D c (Nat × Nat) :=
  if idx = 0 then do
    let kp ← integers (idx + 1) c.popSize
    pure (idx, kp.toNat)
  else if idx = c.popSize - 1 then do
    let km ← integers 0 (c.popSize - 1)
    pure (km.toNat, idx)
  else do
    let km ← integers 0 idx
    let kp ← integers (idx + 1) c.popSize
    pure (km.toNat, kp.toNat)

/-- the weighted difference of a pair (`mealpy/bio_based/APO.py:119-120,129-130`) -/
def diff (a b : Agent d K Unit) : Vec d K := fun j => Num.exp (-Num.abs (a.fit / (b.fit + Num.EPSILON))) * (a.sol j - b.sol j)

/-- one protozoon (`mealpy/bio_based/APO.py:82-135`). The sizes of the random subsets are bounded by the number of dimensions because the
factors are at most one. -/
def step (p : Params K) (ep : Nat) (ri : List Nat) (s : St c Unit Unit) (idx : Nat) : D c (Vec d K × Unit) := do
  let x ← nth s.pop idx
  if idx ∈ ri then do
    let pdr : K := 0.5 * (1 + Num.cos ((1 - ♯(idx + 1) / ♯c.popSize) * Num.pi))
    let r ← randomVec
    let pr : Vec d K := fun j => c.P.lb j + r j * (c.P.ub j - c.P.lb j)
    let u ← random
    if u < pdr then do
      let pos ← correct pr
      pure (pos, ())
    else do
      let f ← random
      let w ← random
      let ids ← subset d (Num.ceil (w * ♯d : K)).toNat
      let r2 ← random
      let pos ← correct (fun j => x.sol j + (if f < 0.5 then 1 else -1) * r2 * pr j * (if j.val ∈ ids then 1 else 0))
      pure (pos, ())
  else do
    let u ← random
    let ff : K := u * (1 + Num.cos (♯ep / ♯c.epoch * Num.pi))
    let ids ← subset d (Num.ceil (♯d * ♯(idx + 1) / ♯c.popSize : K)).toNat
    let pah : K := 0.5 * (1 + Num.cos (♯ep / ♯c.epoch * Num.pi))
    let v ← random
    if v < pah then do
      let jx ← index c.popSize
      let y ← nth s.pop jx
      let ds ← repM p.pairs (fun _ => do
        let (km, kp) ← near idx
        let a ← nth s.pop km
        let b ← nth s.pop kp
        pure (diff a b))
      let pos ← correct (fun j => x.sol j + ff * (y.sol j - x.sol j + (1 / ♯p.pairs) * sumL (ds.map (fun e => e j))) *
        (if j.val ∈ ids then 1 else 0))
      pure (pos, ())
    else do
      let ds ← repM p.pairs (fun k => do
        let a ← nth s.pop (idx - (k + 1))
        let b ← nth s.pop (min (c.popSize - 1) (idx + (k + 1)))
        pure (diff a b))
      let f ← random
      let r ← randomVec
      let pos ← correct (fun j =>
        let xn := (1 + (if f < 0.5 then 1 else -1) * r j * (1 - ♯ep / ♯c.epoch)) * x.sol j
        x.sol j + ff * (xn - x.sol j + (1 / ♯p.pairs) * sumL (ds.map (fun e => e j))) * (if j.val ∈ ids then 1 else 0))
      pure (pos, ())

theorem dt_near {Er : Err → Prop} (hE : c.E.Lawful) (h2 : 2 ≤ c.popSize) {idx : Nat} (hi : idx < c.popSize) :
    DT Er (near idx : D c (Nat × Nat)) (fun q => q.1 < c.popSize ∧ q.2 < c.popSize) := by
  unfold near
  refine DT.ite (fun h => ?_) fun h => DT.ite (fun h' => ?_) fun h' => ?_
  · exact DT.bind (DT.integers hE (by omega)) fun k hk => DT.pure ⟨hi, by simp only; omega⟩
  · exact DT.bind (DT.integers hE (by omega)) fun k hk => DT.pure ⟨by simp only; omega, hi⟩
  · exact DT.bind (DT.integers hE (by omega)) fun k hk => DT.bind (DT.integers hE (by omega)) fun k' hk' =>
      DT.pure ⟨by simp only; omega, by simp only; omega⟩

theorem dt_step (hE : c.E.Lawful) (hP : c.P.Lawful) (hd : 0 < d) (h2 : 2 ≤ c.popSize) {p : Params K} {ep : Nat} {ri : List Nat}
    {s : St c Unit Unit} (hl : s.pop.length = c.popSize) {idx : Nat} (hi : idx < c.popSize) :
    DT noErr (step p ep ri s idx : D c (Vec d K × Unit)) (MkOk (FA c) c) := by
  unfold step
  refine DT.bind (DT.nth_mem (by omega)) fun x _ => DT.ite (fun _ => ?_) fun _ => ?_
  · dgo
  · refine DT.bind DT.random' fun u _ => DT.bind (DT.subset hE hd) fun ids _ => DT.bind DT.random' fun v _ => DT.ite (fun _ => ?_) fun _ => ?_
    · refine DT.bind (DT.index hE (by omega)) fun jx hj => DT.bind (DT.nth_mem (by omega)) fun y _ => ?_
      refine DT.bind (DT.repMT fun k _ => DT.bind (dt_near hE h2 hi) ?_) fun ds _ => DT.bind (DT.correct hP) fun pos hp => DT.pure (FA.mkOk hp)
      rintro ⟨km, kp⟩ ⟨h1, h2⟩
      simp only at h1 h2
      exact DT.bind (DT.nth_mem (by omega)) fun a _ => DT.bind (DT.nth_mem (by omega)) fun b _ => DT.pure trivial
    · refine DT.bind (DT.repMT fun k _ => ?_) fun ds _ => DT.bind DT.random' fun f _ => DT.bind DT.randomVec fun r _ =>
        DT.bind (DT.correct hP) fun pos hp => DT.pure (FA.mkOk hp)
      exact DT.bind (DT.nth_mem (by omega)) fun a _ => DT.bind (DT.nth_mem (by omega)) fun b _ => DT.pure trivial

/-- `OriginalAPO.evolve` (`mealpy/bio_based/APO.py:69-143`) -/
def evolve (p : Params K) (ep : Nat) : M c Unit Unit Unit := do
  let u ← draw random
  let ri ← draw (subset c.popSize (Num.ceil (♯c.popSize * (p.pf * u))).toNat)
  greedyLoopR c.popSize (step p ep ri)

/-- `OriginalAPO` (`mealpy/bio_based/APO.py:12-143`) -/
def algo (p : Params K) : Algo c Unit Unit := Algo.plain true (evolve p)

theorem ok (hE : c.E.Lawful) (hP : c.P.Lawful) (hc : Accepted c 5) (p : Params K) (hd : 0 < d) :
    (algo p : Algo c Unit Unit).Ok (FA c) JT JT JT c.popSize c.popSize c.popSize := by
  plainalg hE hP hc evolve
  refine IT.pt (IT.bind0 (IT.draw DT.random') fun u _ => IT.bind0 (IT.draw (DT.subset hE (by omega))) fun ri _ => ?_)
  exact IT.greedyLoopR hE fun s i hs hl hi => dt_step hE hP hd (by omega) hl hi

theorem framed (hE : c.E.Lawful) (p : Params K) (ep : Nat) : Framed true (evolve p ep : M c Unit Unit Unit) := by
  unfold evolve; framed

end OriginalAPO

namespace OriginalCOA

/-- `n_packs`, `n_coyotes`, `p_leave` (`mealpy/swarm_based/COA.py:68-78`) -/
structure Params (K : Type) where
  packs : Nat
  coyotes : Nat
  leave : K

/-- one pack (`mealpy/swarm_based/COA.py:94-140`). The attribute of an agent is its age. -/
def pack (p : Params K) (g : List (Agent d K Nat)) : M c Nat Unit (List (Agent d K Nat)) := do
  let g1 ← draw (sortedPop g)
  let tend : K := meanAll (g1.map Agent.sol)
  let new ← buildEval p.coyotes (fun _ i => do
    let (r1, r2) ← choose2Without p.coyotes [i]
    let x ← nth g1 i
    let b ← nth g1 0
    let x1 ← nth g1 r1
    let x2 ← nth g1 r2
    let u1 ← random
    let u2 ← random
    let pos ← correct (fun j => x.sol j + u1 * (b.sol j - x1.sol j) + u2 * (tend - x2.sol j))
    pure (pos, x.ext))
  let g2 := zipGreedy c.P.mm g1 new
  let (i1, i2) ← draw (choose2 p.coyotes)
  let dad ← draw (nth g2 i1)
  let mom ← draw (nth g2 i2)
  let r ← draw randomVec
  let z ← draw (normal 0 1)
  let prob : K := (1 - 1 / ♯d) / 2
  let pos ← draw (correct (fun j => z * (if r j < prob then dad.sol j else mom.sol j)))
  let a ← liftB (agentOf (fun _ => pure 1) pos)
  let packs ← draw (sortedPop g2)
  let last ← draw (nth packs (p.coyotes - 1))
  if compareTarget a.tgt last.tgt c.P.mm then
    let byAge := match c.P.mm with
      | .min => packs.insertionSort (fun (a b : Agent d K Nat) => a.ext ≤ b.ext)
      | .max => packs.insertionSort (fun (a b : Agent d K Nat) => b.ext ≤ a.ext)
    pure (byAge.set (p.coyotes - 1) a)
  else pure g2

/-- exchange two coyotes (`mealpy/swarm_based/COA.py:145-147`) -/
def exchange (p : Params K) (gs : List (List (Agent d K Nat))) : D c (List (List (Agent d K Nat))) := do
  let (k1, k2) ← choose2 p.packs
  let (i1, i2) ← choose2 p.coyotes
  let g1 ← nth gs k1
  let g2 ← nth gs k2
  let a ← nth g1 i1
  let b ← nth g2 i2
  pure ((gs.set k1 (g1.set i1 b)).set k2 (g2.set i2 a))

/-- `OriginalCOA.evolve` (`mealpy/swarm_based/COA.py:86-153`). The population at the start of an epoch is the list of packs of the previous one,
so the packs are read off it. -/
def evolve (p : Params K) (ep : Nat) : M c Nat Unit Unit := do
  let s ← get
  let gs := generateGroups s.pop p.packs p.coyotes
  let gs ← iter p.packs (fun k acc => do
    let g ← draw (nth gs k)
    let g' ← pack p g
    pure (acc ++ [g'])) []
  let u ← draw (if 1 < p.packs then random else pure 1 : D c K)
  let gs ← draw (if 1 < p.packs ∧ u < p.leave then exchange p gs else pure gs)
  setPop (gs.flatten.map (fun a => { a with ext := a.ext + 1 }))

theorem wt_pack (hE : c.E.Lawful) (hP : c.P.Lawful) {p : Params K} (h3 : 3 ≤ p.coyotes) {g : List (Agent d K Nat)} (hl : g.length = p.coyotes)
    (hg : ∀ a ∈ g, CF c a) :
    WT noErr (Inv.std c Nat JT) (p.coyotes + 1) (p.coyotes + 1) (pack p g : M c Nat Unit _) (fun l => l.length = p.coyotes ∧ ∀ a ∈ l, CF c a) := by
  unfold pack
  refine WT.bind0 (WT.draw (DT.sortedPop hE)) fun g1 h1 => ?_
  refine WT.bindS (WT.buildEval hE fun s i hs hi => ?_) (by omega) fun new hn => ?_
  · refine DT.bind (DT.choose2Without hE (by simp; omega)) ?_
    rintro ⟨r1, r2⟩ ⟨hr1, hr2, -⟩
    simp only at hr1 hr2
    refine DT.bind (DT.nth_mem (by omega)) fun x _ => DT.bind (DT.nth_mem (by omega)) fun b _ => DT.bind (DT.nth_mem (by omega)) fun x1 _ => ?_
    refine DT.bind (DT.nth_mem (by omega)) fun x2 _ => DT.bind DT.random' fun u1 _ => DT.bind DT.random' fun u2 _ => ?_
    exact DT.bind (DT.correct hP) fun pos hp => DT.pure (Inv.std_mk hp)
  · have hg2l : (zipGreedy c.P.mm g1 new).length = p.coyotes := by rw [zipGreedy_length]; omega
    have hg2 : ∀ a ∈ zipGreedy c.P.mm g1 new, CF c a := zipGreedy_all (fun a ha => hg a ((h1.2 a).1 ha)) hn.2
    refine WT.bind0 (WT.draw (DT.choose2 hE (by omega))) ?_
    rintro ⟨i1, i2⟩ ⟨hi1, hi2, -⟩
    refine WT.bind0 (WT.draw (DT.nth_mem (by omega))) fun dad _ => WT.bind0 (WT.draw (DT.nth_mem (by omega))) fun mom _ => ?_
    refine WT.bind0 (WT.draw DT.randomVec) fun r _ => WT.bind0 (WT.draw DT.normal) fun z _ => WT.bind0 (WT.draw (DT.correct hP)) fun pos hp => ?_
    refine WT.agentOf_std hp (DT.pure trivial) (by omega) fun a ha => WT.bind0 (WT.draw (DT.sortedPop hE)) fun packs hpk => ?_
    have hpc : ∀ b ∈ packs, CF c b := fun b hb => hg2 b ((hpk.2 b).1 hb)
    refine WT.bind0 (WT.draw (DT.nth_mem (by omega))) fun last _ => WT.weaken (WT.ite (fun _ => WT.pure ⟨?_, fun b hb => ?_⟩) fun _ => WT.pure ⟨hg2l, hg2⟩) (by omega) (by omega)
    · rw [List.length_set]
      split <;> (rw [List.length_insertionSort]; omega)
    · rcases List.mem_or_eq_of_mem_set hb with h | h
      · split at h <;> exact hpc b ((List.mem_insertionSort _).1 h)
      · rw [h]; exact ha

theorem framed_pack (hE : c.E.Lawful) {p : Params K} {g : List (Agent d K Nat)} : Framed true (pack p g : M c Nat Unit _) := by
  unfold pack; framed

macro_rules
  | `(tactic| fprim) => `(tactic| (at_last OriginalCOA.pack; exact OriginalCOA.framed_pack (by assumption)))

/-- packs of the right size of evaluated coyotes -/
def Packs (c : Cfg d K) (m : Nat) (gs : List (List (Agent d K Nat))) : Prop := ∀ g ∈ gs, g.length = m ∧ ∀ a ∈ g, CF c a

theorem dt_exchange {Er : Err → Prop} (hE : c.E.Lawful) {p : Params K} (h2 : 2 ≤ p.packs) (hc : 2 ≤ p.coyotes) {gs : List (List (Agent d K Nat))}
    (hl : gs.length = p.packs) (hg : Packs c p.coyotes gs) :
    DT Er (exchange p gs : D c _) (fun l => l.length = p.packs ∧ Packs c p.coyotes l) := by
  unfold exchange
  refine DT.bind (DT.choose2 hE h2) ?_
  rintro ⟨k1, k2⟩ ⟨hk1, hk2, -⟩
  refine DT.bind (DT.choose2 hE hc) ?_
  rintro ⟨i1, i2⟩ ⟨hi1, hi2, -⟩
  simp only at hk1 hk2 hi1 hi2
  refine DT.bind (DT.nth_mem (by omega)) fun g1 hg1 => DT.bind (DT.nth_mem (by omega)) fun g2 hg2 => ?_
  have e1 := hg g1 hg1
  have e2 := hg g2 hg2
  refine DT.bind (DT.nth_mem (by omega)) fun a ha => DT.bind (DT.nth_mem (by omega)) fun b hb => DT.pure ⟨by simp [hl], fun g hgm => ?_⟩
  rcases List.mem_or_eq_of_mem_set hgm with h | h
  · rcases List.mem_or_eq_of_mem_set h with h | h
    · exact hg g h
    · rw [h]
      refine ⟨by simp [e1.1], fun x hx => ?_⟩
      rcases List.mem_or_eq_of_mem_set hx with h' | h'
      · exact e1.2 x h'
      · rw [h']; exact e2.2 b hb
  · rw [h]
    refine ⟨by simp [e2.1], fun x hx => ?_⟩
    rcases List.mem_or_eq_of_mem_set hx with h' | h'
    · exact e2.2 x h'
    · rw [h']; exact e1.2 a ha

theorem flatten_length {α : Type} {m : Nat} : ∀ {gs : List (List α)}, (∀ g ∈ gs, g.length = m) → gs.flatten.length = gs.length * m
  | [], _ => by simp
  | g :: gs, h => by
    rw [List.flatten_cons, List.length_append, h g (by simp), flatten_length fun x hx => h x (by simp [hx]), List.length_cons, Nat.succ_mul]
    omega

/-- `OriginalCOA` (`mealpy/swarm_based/COA.py:13-153`) -/
def algo (p : Params K) : Algo c Nat Unit := Algo.full false (fun _ => pure 1) (pure ()) (evolve p)

theorem wok (hE : c.E.Lawful) (hP : c.P.Lawful) (hc : Accepted c 5) (p : Params K) (hn : p.packs * p.coyotes = c.popSize) (h3 : 3 ≤ p.coyotes) :
    (algo p : Algo c Nat Unit).WOk noErr (Inv.std c Nat JT) JT JT c.popSize c.popSize 0 0 (p.packs * (p.coyotes + 1)) (p.packs * (p.coyotes + 1)) := by
  wfullalg hE hP hc evolve
  refine WT.bind0 WT.get fun s hs => ?_
  have hlen : s.pop.length = c.popSize := hs.len
  obtain ⟨hg1, hg2, hg3, -⟩ := C22_groups s.pop p.packs p.coyotes
  have hgm : ∀ g ∈ generateGroups s.pop p.packs p.coyotes, ∀ a ∈ g, CF c a := fun g hg a ha => by
    have : a ∈ (generateGroups s.pop p.packs p.coyotes).flatten := List.mem_flatten.2 ⟨g, hg, ha⟩
    rw [hg2] at this
    exact hs.pop a (List.mem_of_mem_take this)
  refine WT.bindS (WT.iterL (p.coyotes + 1) (p.coyotes + 1) (fun g : List (Agent d K Nat) => g.length = p.coyotes ∧ ∀ a ∈ g, CF c a) le_rfl le_rfl fun k l hk hl hq => ?_) (by omega) fun gs hgs => ?_
  · refine WT.bind0 (WT.draw (DT.nth_mem (by omega))) fun g hg => ?_
    refine WT.bindS (wt_pack hE hP h3 (hg3 (by omega) g hg) (hgm g hg)) (by omega) fun g' hg' => ?_
    refine WT.weaken (WT.pure ⟨by simp [hl], fun x hx => ?_⟩) (by omega) (by omega)
    rcases List.mem_append.1 hx with h | h
    · exact hq x h
    · rw [List.mem_singleton.1 h]; exact hg'
  · refine WT.bind0 (WT.draw (R := fun _ => True) (by dgo)) fun u _ => ?_
    refine WT.bind0 (WT.draw (R := fun l => l.length = p.packs ∧ Packs c p.coyotes l) (DT.ite (fun h => dt_exchange hE (by omega) (by omega) hgs.1 hgs.2) fun _ => DT.pure hgs)) fun gs' h' => ?_
    refine WT.weaken (WT.setPop (I := Inv.std c Nat JT) ?_ fun a ha => ?_) (by omega) (by omega)
    · change _ = c.popSize
      rw [List.length_map, flatten_length fun g hg => (h'.2 g hg).1, h'.1, hn]
    · obtain ⟨b, hb, rfl⟩ := List.mem_map.1 ha
      obtain ⟨g, hg, hbg⟩ := List.mem_flatten.1 hb
      exact CF.extUpd ((h'.2 g hg).2 b hbg)

theorem framed (hE : c.E.Lawful) (p : Params K) (ep : Nat) : Framed true (evolve p ep : M c Nat Unit Unit) := by
  unfold evolve; framed

end OriginalCOA

namespace OriginalASO

/-- the parameters (`mealpy/physics_based/ASO.py:71-72`) -/
structure Params (K : Type) where
  alpha : Nat
  beta : K

/-- `generate_empty_agent` (`mealpy/physics_based/ASO.py:76-81`): velocity and mass -/
def mkExt (x : Vec d K) : D c (Vec d K × K) := do
  let v ← uniformVec c.P.lb c.P.ub
  pure (v, 0)

theorem dt_mkExt {Er : Err → Prop} {x : Vec d K} {Q : Vec d K × K → Prop} (h : ∀ e, Q e) : DT Er (mkExt x : D c (Vec d K × K)) Q := by
  unfold mkExt
  exact DT.bind DT.uniformVec' fun w _ => DT.pure (h _)

macro_rules
  | `(tactic| dprim) => `(tactic| (at_head OriginalASO.mkExt; exact OriginalASO.dt_mkExt (fun _ => by dfin)))

/-- `find_LJ_potential__` (`mealpy/physics_based/ASO.py:96-109`) -/
def potential (ep : Nat) (avg radius : K) : K :=
  let cc : K := Num.pow (1 - ♯ep / ♯c.epoch) 3
  let rsmin : K := 1.1 + 0.1 * Num.sin (♯ep / ♯c.epoch * Num.pi / 2)
  let q : K := radius / avg
  let rs : K := if q < rsmin then rsmin else if q > 1.24 then 1.24 else q
  cc * (12 * Num.pow (-rs) (-13) - 6 * Num.pow (-rs) (-7))

/-- `update_mass__` (`mealpy/physics_based/ASO.py:88-94`) -/
def masses (pop : List (Agent d K (Vec d K × K))) : List K :=
  let fits := pop.map Agent.fit
  let e := fits.map (fun f => Num.exp (-(f - maxL fits) / (maxL fits - minL fits + Num.EPSILON)))
  e.map (fun x => x / sumL e)

/-- `acceleration__` after the masses are set (`mealpy/physics_based/ASO.py:111-134`) -/
def accel (p : Params K) (ep : Nat) (s : St c (Vec d K × K) Unit) : D c (List (Vec d K)) :=
  let k := (Num.floor (♯c.popSize - (♯c.popSize - 2) * Num.sqrt (♯ep / ♯c.epoch) : K) + 1).toNat
  let sorted := match c.P.mm with
    | .min => s.pop.insertionSort (fun (a b : Agent d K (Vec d K × K)) => b.ext.2 ≤ a.ext.2)
    | .max => s.pop.insertionSort (fun (a b : Agent d K (Vec d K × K)) => a.ext.2 ≤ b.ext.2)
  let kb := sorted.take k
  let mk : K := meanAll (kb.map Agent.sol)
  repM c.popSize (fun idx => do
    let x ← nth s.pop idx
    let avg : K := normV (fun j => x.sol j - mk)
    let temp ← iter kb.length (fun i acc => do
      let a ← nth kb i
      let radius : K := normV (fun j => x.sol j - a.sol j)
      let u ← uniformVec (fun _ => 0) (fun _ => 1)
      pure (fun j => acc j + potential (c := c) ep avg radius * u j * ((a.sol j - x.sol j) / (radius + Num.pow 2 (-52))))) (fun _ => 0)
    pure (fun j => Num.exp (-20 * ♯ep / ♯c.epoch) * (♯p.alpha * temp j + p.beta * (s.gbest.sol j - x.sol j)) / x.ext.2))

/-- `OriginalASO.evolve` (`mealpy/physics_based/ASO.py:136-163`); positions outside the bounds are redrawn (83-86) -/
def evolve (p : Params K) (ep : Nat) : M c (Vec d K × K) Unit Unit := do
  let s ← get
  let ms := masses s.pop
  mapExt (fun i a => (a.ext.1, ms.getD i 0))
  let s ← get
  let acc ← draw (accel p ep s)
  let new ← greedyNew c.popSize (fun s idx => do
    let x ← nth s.pop idx
    let r ← randomVec
    let ac ← nth acc idx
    let pos ← correctWith amendRandom (fun j => x.sol j + (r j * x.ext.1 j + ac j))
    pure (pos, x.ext))
  let b ← draw (bestAgent new)
  let s ← get
  if compareTarget s.gbest.tgt b.tgt c.P.mm then do
    let i ← draw (index c.popSize)
    setAt i s.gbest
  else pure ()

/-- `OriginalASO` (`mealpy/physics_based/ASO.py:13-163`) -/
def algo (p : Params K) : Algo c (Vec d K × K) Unit := Algo.full false mkExt (pure ()) (evolve p)

theorem wok (hE : c.E.Lawful) (hP : c.P.Lawful) (hc : Accepted c 5) (p : Params K) :
    (algo p : Algo c (Vec d K × K) Unit).WOk noErr (Inv.std c (Vec d K × K) JT) JT JT c.popSize c.popSize 0 0 c.popSize c.popSize := by
  wfullalg hE hP hc evolve
  refine WT.bind0 WT.get fun s0 hs0 => WT.bind0 WT.mapExt fun _ _ => WT.bind0 WT.get fun s hs => ?_
  have hlen : s.pop.length = c.popSize := hs.len
  refine WT.bind0 (WT.draw (R := fun l => l.length = c.popSize) (by unfold accel; exact DT.repMT fun i hi => by dgo)) fun acc hacc => ?_
  refine WT.bindS (WT.greedyNew hE fun s i hs hlen hi => ?_) (by omega) fun new hn => ?_
  · dgo
  · refine WT.bind0 (WT.draw (DT.bestAgent' hE (by omega))) fun b _ => WT.bind0 WT.get fun s hs => ?_
    refine WT.weaken (WT.ite (fun _ => ?_) fun _ => WT.pure trivial) (by omega) (by omega)
    exact WT.bind0 (WT.draw (DT.index hE (by omega))) fun i hi => WT.setAt (by wsz) hs.gbest

theorem framed (hE : c.E.Lawful) (p : Params K) (ep : Nat) : Framed true (evolve p ep : M c (Vec d K × K) Unit Unit) := by
  unfold evolve; framed

end OriginalASO

namespace DevSSpiderA

/-- `r_a` (`mealpy/swarm_based/SSpiderA.py:76`); the mask of an agent never changes, since only copies get new masks, so `p_c` and `p_m` have no
effect on positions other than the draws -/
structure Params (K : Type) where
  ra : K
  pc : K

/-- target position, previous move, intensity (`mealpy/swarm_based/SSpiderA.py:82-111`) -/
structure Att (d : Nat) (K : Type) where
  tsol : Vec d K
  loc : Vec d K
  inten : K

/-- the intensity of a fitness (`mealpy/swarm_based/SSpiderA.py:110`) -/
def intensity (f : K) : K := Num.log (1 / (Num.abs f + Num.EPSILON) + 1)

/-- `generate_empty_agent`, `generate_agent` (`mealpy/swarm_based/SSpiderA.py:82-111`) -/
def mkExt (x : Vec d K) : D c (Att d K) := pure ⟨x, fun _ => 0, intensity (c.P.target x).fitness⟩

theorem dt_mkExt {Er : Err → Prop} {x : Vec d K} {Q : Att d K → Prop} (h : ∀ e, Q e) : DT Er (mkExt x : D c (Att d K)) Q := by
  unfold mkExt
  exact DT.pure (h _)

macro_rules
  | `(tactic| dprim) => `(tactic| (at_head DevSSpiderA.mkExt; exact DevSSpiderA.dt_mkExt (fun _ => by dfin)))

/-- `DevSSpiderA.evolve` (`mealpy/swarm_based/SSpiderA.py:113-150`). The attributes of a new agent are those it has if it replaces the old one:
`target_solution` and `mask` stay those of the old agent. -/
def evolve (p : Params K) (ep : Nat) : M c (Att d K) Unit Unit := do
  let new ← buildEval c.popSize (fun s idx => do
    let x ← nth s.pop idx
    let u ← random
    let _m ← (if u > p.pc then uniformVec (fun _ => 0) (fun _ => 1) else pure (fun _ => 0) : D c (Vec d K))
    let k ← index c.popSize
    let _y ← nth s.pop k
    let z1 ← normal 0 1
    let z2 ← normal 0 1
    let pos ← correct (fun j => x.sol j + z1 * (x.sol j - x.ext.loc j) + (x.ext.tsol j - x.sol j) * z2)
    pure (pos, ⟨x.ext.tsol, fun j => pos j - x.sol j, intensity (c.P.target pos).fitness⟩))
  compareLoop c.popSize new

/-- `DevSSpiderA` (`mealpy/swarm_based/SSpiderA.py:14-150`) -/
def algo (p : Params K) : Algo c (DevSSpiderA.Att d K) Unit := Algo.full false mkExt (pure ()) (evolve p)

theorem ok (hE : c.E.Lawful) (hP : c.P.Lawful) (hc : Accepted c 5) (p : Params K) :
    (algo p : Algo c (DevSSpiderA.Att d K) Unit).Ok (FA c) JT JT JT c.popSize c.popSize c.popSize := by
  fullalg hE hP hc evolve
  exact IT.pt (IT.evalCompare hE (by mkgo) (fun _ _ _ _ h => h) (fun _ _ _ _ h => h))

theorem framed (hE : c.E.Lawful) (p : Params K) (ep : Nat) : Framed true (evolve p ep : M c (DevSSpiderA.Att d K) Unit Unit) := by
  unfold evolve; framed

end DevSSpiderA
