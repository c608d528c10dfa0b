import Verif.Alg.Kit20
import Verif.Alg.Simple13
import Verif.Alg.Simple17

/-! # Ensemble sinusoidal differential evolution (`mealpy/sota_based/LSHADEcnEpSin.py:13-370`)

The population shrinks from epoch to epoch. -/

set_option linter.unusedSectionVars false
set_option linter.unusedVariables false

namespace Mealpy
open Spec

variable {d : Nat} {K : Type} [Num K] {c : Cfg d K}

namespace OriginalLSHADEcnEpSin

/-- the hyper-parameters (`mealpy/sota_based/LSHADEcnEpSin.py:87-93`) -/
structure Params (K : Type) where
  miuF : K
  miuCr : K
  freq : K
  memory : Nat
  ps : K
  pc : K
  min : Nat

/-- The attributes (`mealpy/sota_based/LSHADEcnEpSin.py:97-122`). `M_freq` is never changed. A record of `past` counts the successes of the two
configurations and their failures in one epoch. Of the agents in the archive only the positions matter. -/
structure Vars (d : Nat) (K : Type) where
  memF : List K
  memCr : List K
  memIdx : Nat
  past : List (Nat × Nat × Nat × Nat)
  archive : List (Vec d K)

/-- `initialize_variables` (`mealpy/sota_based/LSHADEcnEpSin.py:97-118`) -/
def initVars (p : Params K) : Vars d K := ⟨List.replicate p.memory p.miuF, List.replicate p.memory p.miuCr, 0, [], []⟩

/-- `before_main_loop` (`mealpy/sota_based/LSHADEcnEpSin.py:120-122`) -/
def before (s : St c Unit (Vars d K)) : D c (Vars d K) := pure { s.ext with archive := s.pop.map (·.sol) }

/-- the population size after epoch `ep` (`mealpy/sota_based/LSHADEcnEpSin.py:259-260`). The quotient of the two integers is computed in floating
point; it is below `2 ^ 53` and its denominator at most `100000`, so that its integer part is the exact one. If `pop_size < pop_size_min`
the quotient is not positive and `max` answers `pop_size_min`. -/
def size (c : Cfg d K) (p : Params K) (ep : Nat) : Nat := p.min + (c.popSize - p.min) * (c.epoch - ep) / c.epoch

/-- `self.NP` at the start of epoch `ep`, when the population has `n` agents: they are the same number unless `pop_size < pop_size_min`, when
`NP` is `pop_size_min` after the first epoch and the population stays as it is -/
def np (c : Cfg d K) (p : Params K) (ep n : Nat) : Nat := if c.popSize < p.min ∧ 1 < ep then p.min else n

/-- the first probability of `update_sinusoidal_probabilities` (`mealpy/sota_based/LSHADEcnEpSin.py:124-147`) -/
def prob (y : Vars d K) (ep : Nat) : K :=
  if ep ≤ 10 then 0.5
  else
    let recent := (y.past.take ep).drop (ep - 10)
    let rate (ns nf : Nat) : K := if ep - 10 < y.past.length then (♯ns + 0.01) / (♯ns + ♯nf + 2 * 0.01) else 0.01
    let s1 := rate (recent.map (·.1)).sum (recent.map (·.2.2.1)).sum
    let s2 := rate (recent.map (·.2.1)).sum (recent.map (·.2.2.2)).sum
    s1 / (s1 + s2)

/-- `sinusoidal_adaptation` (`mealpy/sota_based/LSHADEcnEpSin.py:149-162`) at the argument of the sine -/
def wave (x : K) : K := max 0.1 (min 1 (0.5 * Num.sin x + 0.5))

/-- `F` with the configuration used (`mealpy/sota_based/LSHADEcnEpSin.py:284-303`). `cauchy.rvs` is scipy's. -/
def factor (p : Params K) (y : Vars d K) (ep : Nat) : D c (K × Nat) :=
  if ep ≤ c.epoch / 2 then do
    let u ← random
    if u < prob y ep then pure (wave (2 * Num.pi * p.freq * (♯c.epoch - ♯ep) / ♯c.epoch), 1)
    else do
      let _ ← index p.memory
      let z ← dist "cauchy" [p.freq, 0.1]
      pure (wave (2 * Num.pi * clip z 0.1 2 * ♯ep / ♯c.epoch), 2)
  else do
    let r ← index p.memory
    let mu ← nth y.memF r
    let z ← dist "cauchy" [mu, 0.1]
    pure (clip z 0.1 1, 0)

/-- `CR` (`mealpy/sota_based/LSHADEcnEpSin.py:305-308`) -/
def rate (p : Params K) (y : Vars d K) : D c K := do
  let r ← index p.memory
  let mu ← nth y.memCr r
  let z ← dist "norm" [mu, 0.1]
  pure (clip z 0 1)

/-- `current_to_pbest_mutation` (`mealpy/sota_based/LSHADEcnEpSin.py:164-182`); `int(0.1 * n)` is `n // 10` -/
def mutant (pop : List (Agent d K Unit)) (archive : List (Vec d K)) (n idx : Nat) (F : K) : D c (Vec d K) := do
  let sorted ← sortedPop pop
  let k ← index (max 1 (n / 10))
  let r1 ← pickWithout n [idx]
  let both := pop.map (·.sol) ++ archive
  let r2 ← pickWithout both.length [idx, r1]
  let x ← nth pop idx
  let b ← nth sorted k
  let a ← nth pop r1
  let e ← nth both r2
  correct (fun j => x.sol j + F * (b.sol j - x.sol j) + F * (a.sol j - e j))

/-- the crossover of `binomial_crossover` and of the eigen space (`mealpy/sota_based/LSHADEcnEpSin.py:190-193` and 229-231) -/
def binomial (x m : Vec d K) (cr : K) : D c (Vec d K) := do
  let u ← uniformVec (fun _ => 0) (fun _ => 1)
  let k ← index d
  pure (fun j => if u j ≤ cr ∨ j.val = k then m j else x j)

/-- `np.cov` of a list of points, one entry -/
def cov (rows : List (Vec d K)) (i j : Fin d) : K :=
  let mean := meanPos rows
  sumL (rows.map (fun x => (x i - mean i) * (x j - mean j))) / (♯rows.length - 1)

/-- `covariance_matrix_crossover` (`mealpy/sota_based/LSHADEcnEpSin.py:195-240`). In one dimension `np.cov` answers a scalar, and adding the
identity matrix to it in place raises ValueError. Whether `eigh` succeeds and what it answers is left to the environment. -/
def covariance (p : Params K) (y : Vars d K) (pop : List (Agent d K Unit)) (n : Nat) (best x m : Vec d K) : D c (Vec d K) :=
  let xs := pop.map (·.sol)
  let near := (c.E.argsort (xs.map (fun z => normV (fun j => z j - best j)))).take (max 2 (Num.trunc (p.ps * ♯n)).toNat)
  let rows := near.filterMap (fun i => xs[i]?)
  if 1 < rows.length then
    if d = 1 then dthrow .value
    else do
      let entries := (List.finRange d).flatMap (fun i => (List.finRange d).map (fun j => cov rows i j + (if i = j then 1.0e-8 else 0)))
      let fails ← dist "eigh fails" entries
      if fails = 0 then do
        let B : Fin d → Vec d K ← vecM (fun i => vecM (fun j => dist "eigh" (♯i.val :: ♯j.val :: entries)))
        let cr ← rate p y
        let t ← binomial (fun j => sumL (List.ofFn (fun i => B i j * x i))) (fun j => sumL (List.ofFn (fun i => B i j * m i))) cr
        pure (fun i => dotV (B i) t)
      else do
        let cr ← rate p y
        binomial x m cr
  else do
    let cr ← rate p y
    binomial x m cr

/-- `weighted_lehmer_mean` (`mealpy/sota_based/LSHADEcnEpSin.py:242-255`) -/
def lehmer (vs deltas : List K) : K :=
  let ds := deltas.map (fun x => max x 1.0e-10)
  let ws := ds.map (fun x => x / sumL ds)
  let den := sumL (List.zipWith (fun w v => w * v) ws vs)
  if vs.length = 0 then 0.5 else if den = 0 then 0.5 else sumL (List.zipWith (fun w v => w * Num.pow v 2) ws vs) / den

/-- what changes while the agents are visited; a win is `F`, `CR` and the gain -/
structure Run (d : Nat) (K : Type) where
  pop : List (Agent d K Unit)
  archive : List (Vec d K)
  wins : List (K × K × K)
  count : Nat × Nat × Nat × Nat

/-- the record of the epoch (`mealpy/sota_based/LSHADEcnEpSin.py:330-334` and 340-344); `conf` is 0 in the second half -/
def tally (q : Nat × Nat × Nat × Nat) (conf : Nat) (won : Bool) : Nat × Nat × Nat × Nat :=
  if conf = 1 then (if won then (q.1 + 1, q.2) else (q.1, q.2.1, q.2.2.1 + 1, q.2.2.2))
  else if conf = 2 then (if won then (q.1, q.2.1 + 1, q.2.2) else (q.1, q.2.1, q.2.2.1, q.2.2.2 + 1))
  else q

/-- the new position of agent `idx`, with `F`, `CR` and the configuration (`mealpy/sota_based/LSHADEcnEpSin.py:284-320`) -/
def plan (p : Params K) (y : Vars d K) (ep n : Nat) (best : Vec d K) (r : Run d K) (idx : Nat) : D c (Vec d K × K × K × Nat) := do
  let f ← factor p y ep
  let cr ← rate p y
  let m ← mutant r.pop r.archive n idx f.1
  let u ← random
  let x ← nth r.pop idx
  let t ← (if u < p.pc then covariance p y r.pop n best x.sol m else binomial x.sol m cr : D c (Vec d K))
  let pos ← correct t
  pure (pos, f.1, cr, f.2)

/-- one agent (`mealpy/sota_based/LSHADEcnEpSin.py:283-344`) -/
def step (p : Params K) (y : Vars d K) (ep n : Nat) (best : Vec d K) (idx : Nat) (r : Run d K) : M c Unit (Vars d K) (Run d K) := do
  let q ← draw (plan p y ep n best r idx)
  let x ← draw (nth r.pop idx)
  let t ← liftB (getTarget q.1)
  if compareTarget t x.tgt c.P.mm then
    pure ⟨r.pop.set idx ⟨q.1, t, ()⟩, r.archive ++ [x.sol], r.wins ++ [(q.2.1, q.2.2.1, Num.abs (x.fit - t.fitness))], tally r.count q.2.2.2 true⟩
  else pure { r with count := tally r.count q.2.2.2 false }

/-- the memory (`mealpy/sota_based/LSHADEcnEpSin.py:346-359`) -/
def learn (p : Params K) (y : Vars d K) (r : Run d K) : Vars d K :=
  let y := { y with past := y.past ++ [r.count] }
  if 0 < r.wins.length then
    { y with
      memF := y.memF.set y.memIdx (lehmer (r.wins.map (·.1)) (r.wins.map (·.2.2)))
      memCr := y.memCr.set y.memIdx (lehmer (r.wins.map (·.2.1)) (r.wins.map (·.2.2)))
      memIdx := (y.memIdx + 1) % p.memory }
  else y

/-- `linear_population_reduction` (`mealpy/sota_based/LSHADEcnEpSin.py:257-267`) -/
def reduce (pop : List (Agent d K Unit)) (n m : Nat) : D c (List (Agent d K Unit)) :=
  if m < n then do
    let sorted ← sortedPop pop
    let ord ← permutation (sorted.take m).length
    pure (ord.filterMap (fun i => (sorted.take m)[i]?))
  else pure pop

/-- the archive is limited (`mealpy/sota_based/LSHADEcnEpSin.py:364-370`) -/
def limit (archive : List (Vec d K)) (m : Nat) : D c (List (Vec d K)) :=
  if m < archive.length then do
    let out ← choice archive.length (archive.length - m) false
    let keep ← inSomeOrder (rangeWithout archive.length out)
    pure (keep.filterMap (fun i => archive[i]?))
  else pure archive

/-- `OriginalLSHADEcnEpSin.evolve` (`mealpy/sota_based/LSHADEcnEpSin.py:269-370`) -/
def evolve (p : Params K) (ep : Nat) : M c Unit (Vars d K) Unit := do
  let s ← get
  let n := np c p ep s.pop.length
  let r ← iter n (fun i r => step p s.ext ep n s.gbest.sol i r) ⟨s.pop, s.ext.archive, [], (0, 0, 0, 0)⟩
  let pop ← draw (reduce r.pop n (size c p ep))
  let archive ← draw (limit r.archive (size c p ep))
  setPop pop
  modExt (fun y => { learn p y r with archive := archive })

/-- `OriginalLSHADEcnEpSin` (`mealpy/sota_based/LSHADEcnEpSin.py:13-370`) -/
def algo (p : Params K) : Algo c Unit (Vars d K) := Algo.pre false (fun _ => pure ()) (pure (initVars p)) before (evolve p)

/-- the memories are as long as asked for -/
structure Ok (p : Params K) (y : Vars d K) : Prop where
  idx : y.memIdx < p.memory
  f : y.memF.length = p.memory
  cr : y.memCr.length = p.memory

/-- at least `pop_size_min` agents and no more than at first -/
def Between (c : Cfg d K) (p : Params K) (n : Nat) : Prop := p.min ≤ n ∧ n ≤ c.popSize

section

variable {p : Params K} {y : Vars d K} {ep n idx : Nat}

theorem size_ge : p.min ≤ size c p ep := Nat.le_add_right _ _

theorem size_le (h : p.min ≤ c.popSize) (he : 0 < c.epoch) : size c p ep ≤ c.popSize := by
  unfold size
  have : (c.popSize - p.min) * (c.epoch - ep) / c.epoch ≤ c.popSize - p.min := by
    refine (Nat.div_le_div_right (Nat.mul_le_mul_left _ (Nat.sub_le c.epoch ep))).trans ?_
    rw [Nat.mul_div_cancel _ he]
  omega

theorem dt_factor (hE : c.E.Lawful) (h : Ok p y) : DT noErr (factor p y ep : D c _) (fun _ => True) := by
  have hm : 0 < p.memory := by have := h.idx; omega
  unfold factor
  refine DT.ite (fun _ => DT.bind DT.random' fun u _ => DT.ite (fun _ => DT.pure trivial) fun _ => ?_) fun _ => ?_
  · exact DT.bind (DT.index hE hm) fun _ _ => DT.bind DT.dist fun _ _ => DT.pure trivial
  · exact DT.bind (DT.index hE hm) fun r hr => DT.bind (DT.nth_mem (by rw [h.f]; exact hr)) fun _ _ => DT.bind DT.dist fun _ _ => DT.pure trivial

theorem dt_rate (hE : c.E.Lawful) (h : Ok p y) : DT noErr (rate p y : D c _) (fun _ => True) := by
  have hm : 0 < p.memory := by have := h.idx; omega
  unfold rate
  exact DT.bind (DT.index hE hm) fun r hr => DT.bind (DT.nth_mem (by rw [h.cr]; exact hr)) fun _ _ => DT.bind DT.dist fun _ _ => DT.pure trivial

theorem dt_mutant (hE : c.E.Lawful) (hP : c.P.Lawful) {pop : List (Agent d K Unit)} {archive : List (Vec d K)} {F : K} (h4 : 4 ≤ pop.length) (hi : idx < pop.length) :
    DT noErr (mutant pop archive pop.length idx F : D c _) (fun _ => True) := by
  unfold mutant
  dsimp only
  refine DT.bind (DT.sortedPop hE) fun sorted hs => DT.bind (DT.index hE (by omega)) fun k hk => DT.bind (DT.pickWithout hE (by simp; omega)) fun r1 h1 => ?_
  refine DT.bind (DT.pickWithout hE (by simp; omega)) fun r2 h2 => DT.bind (DT.nth_mem hi) fun x _ => DT.bind (DT.nth_mem (by rw [hs.1]; omega)) fun b _ => ?_
  exact DT.bind (DT.nth_mem h1.1) fun a _ => DT.bind (DT.nth_mem h2.1) fun e _ => DT.mono (DT.correct hP) fun _ _ => trivial

theorem dt_binomial (hE : c.E.Lawful) (hd : 0 < d) {x m : Vec d K} {cr : K} : DT noErr (binomial x m cr : D c _) (fun _ => True) := by
  unfold binomial
  exact DT.bind DT.uniformVec' fun _ _ => DT.bind (DT.index hE hd) fun _ _ => DT.pure trivial

theorem dt_covariance (hE : c.E.Lawful) (hd : 2 ≤ d) (h : Ok p y) {pop : List (Agent d K Unit)} {best x m : Vec d K} :
    DT noErr (covariance p y pop n best x m : D c _) (fun _ => True) := by
  have hb : ∀ {x m : Vec d K}, DT noErr (do let cr ← rate p y; binomial x m cr : D c (Vec d K)) (fun _ => True) :=
    fun {x m} => DT.bind (dt_rate hE h) fun cr _ => dt_binomial hE (by omega)
  unfold covariance
  dsimp only
  refine DT.ite (fun _ => ?_) fun _ => hb
  rw [if_neg (by omega)]
  refine DT.bind DT.dist fun _ _ => DT.ite (fun _ => ?_) fun _ => hb
  exact DT.bind (R := fun _ => True) (DT.vecMT fun i => DT.vecMT fun j => DT.dist) fun B _ => DT.bind (dt_rate hE h) fun cr _ => DT.bind (dt_binomial hE (by omega)) fun t _ => DT.pure trivial

theorem dt_plan (hE : c.E.Lawful) (hP : c.P.Lawful) (hd : 2 ≤ d) (h : Ok p y) {best : Vec d K} {r : Run d K} (h4 : 4 ≤ r.pop.length) (hi : idx < r.pop.length) :
    DT noErr (plan p y ep r.pop.length best r idx : D c _) (fun q => Feas c q.1) := by
  unfold plan
  refine DT.bind (dt_factor hE h) fun f _ => DT.bind (dt_rate hE h) fun cr _ => DT.bind (dt_mutant hE hP h4 hi) fun m _ => DT.bind DT.random' fun u _ => ?_
  refine DT.bind (DT.nth_mem hi) fun x _ => DT.bind (R := fun _ => True) (DT.ite (fun _ => dt_covariance hE hd h) fun _ => dt_binomial hE (by omega)) fun t _ => ?_
  exact DT.bind (DT.correct hP) fun pos hp => DT.pure hp

/-- the invariant -/
abbrev I (c : Cfg d K) (p : Params K) : Inv c Unit (Vars d K) := Inv.sized c Unit (Between c p) (Ok p)

/-- what the visits keep -/
def Fine (c : Cfg d K) (n : Nat) (r : Run d K) : Prop := r.pop.length = n ∧ ∀ a ∈ r.pop, CF c a

theorem wt_step (hE : c.E.Lawful) (hP : c.P.Lawful) (hd : 2 ≤ d) (h : Ok p y) {best : Vec d K} {r : Run d K} (h4 : 4 ≤ n) (hr : Fine c n r) (hi : idx < n) :
    WT noErr (I c p) 1 1 (step p y ep n best idx r : M c Unit (Vars d K) _) (Fine c n) := by
  obtain ⟨rfl, hr⟩ := hr
  unfold step
  refine WT.bind0 (WT.draw (dt_plan hE hP hd h h4 hi)) fun q hq => WT.bind0 (WT.draw (DT.nth_mem hi)) fun x hx => ?_
  refine WT.bindS (WT.getTarget hq) (by omega) fun t ht => WT.weaken (WT.ite (fun _ => WT.pure ⟨by rw [List.length_set], fun a ha => ?_⟩) fun _ => WT.pure ⟨rfl, hr⟩) (by omega) (by omega)
  rcases mem_set_iff ha with rfl | ha
  · exact ⟨ht, hq⟩
  · exact hr a ha

theorem dt_reduce (hE : c.E.Lawful) {pop : List (Agent d K Unit)} {m : Nat} (hp : ∀ a ∈ pop, CF c a) (hl : p.min ≤ pop.length ∧ pop.length ≤ c.popSize) (hm : p.min ≤ m) :
    DT noErr (reduce pop pop.length m : D c _) (fun l => Between c p l.length ∧ ∀ a ∈ l, CF c a) := by
  unfold reduce
  refine DT.ite (fun hlt => DT.bind (DT.sortedPop hE) fun sorted hs => DT.bind (DT.permutation hE) fun ord ho => DT.pure ⟨?_, fun a ha => ?_⟩) fun _ => DT.pure ⟨hl, hp⟩
  · rw [lookup_all fun i hi => List.mem_range.1 ((ho.mem_iff).1 hi), ho.length_eq, List.length_range, List.length_take, hs.1]
    constructor <;> omega
  · obtain ⟨i, _, h⟩ := List.mem_filterMap.1 ha
    exact hp a ((hs.2 a).1 (List.mem_of_mem_take (List.mem_of_getElem? h)))

theorem dt_limit (hE : c.E.Lawful) {archive : List (Vec d K)} {m : Nat} : DT noErr (limit archive m : D c _) (fun _ => True) := by
  unfold limit
  refine DT.ite (fun _ => ?_) fun _ => DT.pure trivial
  exact DT.bind (DT.choice hE (OriginalCRO.choice_ok (by omega))) fun out _ => DT.bind (DT.inSomeOrder hE) fun keep _ => DT.pure trivial

theorem learn_ok (h : Ok p y) {r : Run d K} : Ok p (learn p y r) := by
  unfold learn
  dsimp only
  split
  · exact ⟨Nat.mod_lt _ (by have := h.idx; omega), (List.length_set ..).trans h.f, (List.length_set ..).trans h.cr⟩
  · exact ⟨h.idx, h.f, h.cr⟩

theorem framed_step {best : Vec d K} {r : Run d K} : Framed true (step p y ep n best idx r : M c Unit (Vars d K) _) := by
  unfold step; framed

end

theorem wok (hE : c.E.Lawful) (hP : c.P.Lawful) (hc : Accepted c 5) (p : Params K) (hd : 2 ≤ d) (hm : 1 ≤ p.memory) (h4 : 4 ≤ p.min) (hmin : p.min ≤ c.popSize) :
    (algo p : Algo c Unit (Vars d K)).WOk noErr (I c p) (Ok p) (Ok p) c.popSize c.popSize 0 0 p.min c.popSize := by
  have hpop := hc.pop
  have hep := hc.epoch
  unfold algo
  refine Algo.before_wok (I := I c p) hE hP (by omega) (⟨hmin, le_rfl⟩ : Between c p c.popSize) (fun n hn => by have : Between c p n := hn; have := this.1; omega) rfl
    (Inv.sized_box (mkExt := fun _ => pure ()) fun x hx => DT.pure trivial) (DT.pure ⟨by simp only [initVars]; omega, by simp [initVars], by simp [initVars]⟩) ?_ (fun ep _ _ => ?_)
  · intro s hs
    have h0 : Ok p s.ext := hs.ext
    have hb : DT noErr (before s) (Ok p) := DT.pure ⟨h0.idx, h0.f, h0.cr⟩
    refine Wp.bind (Wp.get (Wp.bind (Wp.draw hb fun y r v hy => Wp.modify ?_)))
    exact ⟨⟨hs.len, hs.pop, hy, hs.gbest, hs.record, hs.worst, hs.cbest, hs.cworst⟩, .refl rfl, .rfl⟩
  show WT noErr (I c p) p.min c.popSize (evolve p ep) (fun _ => True)
  unfold evolve
  refine WT.bind0 WT.get fun s hs => ?_
  have hsz : Between c p s.pop.length := hs.len
  have hok : Ok p s.ext := hs.ext
  have hn1 := hsz.1
  have hn2 := hsz.2
  dsimp only
  rw [show np c p ep s.pop.length = s.pop.length from if_neg (by omega)]
  refine WT.bindS (WT.iter (lo := 1) (hi := 1) (fun _ r => Fine c s.pop.length r) s.pop.length ⟨rfl, fun a ha => ⟨(hs.pop a ha).1, (hs.pop a ha).2⟩⟩
    fun i r hi hr => wt_step hE hP hd hok (by omega) hr hi) (by omega) fun r hr => ?_
  have hred := dt_reduce (c := c) (p := p) hE hr.2 (m := size c p ep) (by rw [hr.1]; exact hsz) size_ge
  rw [hr.1] at hred
  refine WT.bind0 (WT.draw hred) fun pop hpop' => WT.bind0 (WT.draw (dt_limit hE)) fun archive _ => ?_
  refine WT.bind0 (WT.setPop hpop'.1 hpop'.2) fun _ _ => WT.weaken (WT.modExt fun y hy => ?_) (by omega) (by omega)
  have h := learn_ok hy (r := r)
  exact ⟨h.idx, h.f, h.cr⟩

macro_rules
  | `(tactic| fprim) => `(tactic| (at_last OriginalLSHADEcnEpSin.step; exact OriginalLSHADEcnEpSin.framed_step))

theorem framed (hE : c.E.Lawful) (p : Params K) (ep : Nat) : Framed true (evolve p ep : M c Unit (Vars d K) Unit) := by
  unfold evolve; framed

end OriginalLSHADEcnEpSin

end Mealpy
