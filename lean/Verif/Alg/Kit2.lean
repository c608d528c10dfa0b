import Verif.Alg.Kit
import Verif.Alg.Hold

/-! # More idioms of the `evolve` methods -/

set_option linter.unusedSectionVars false
set_option linter.unusedVariables false

namespace Mealpy
open Spec

variable {d : Nat} {K : Type} [Num K] {c : Cfg d K} {X Y : Type} {α : Type} {Er : Err → Prop}
variable {F : Agent d K X → Prop} {J : Y → Prop}

/-! ## Programs that begin with a `match` -/

open Lean Elab Tactic Meta in
/-- the goal's program is a `match` -/
elab "at_match" : tactic => withMainContext do
  let m ← Mealpy.Tactics.program (← getMainTarget)
  let some n := m.getAppFn.constName? | throwError "other program"
  unless (← Lean.Meta.isMatcher n) do throwError "other program"

macro_rules
  | `(tactic| istep) => `(tactic| (at_match; split))
macro_rules
  | `(tactic| wstep) => `(tactic| (at_match; split))

/-- one step of code ending in a replacement -/
syntax "pstep" : tactic
macro_rules
  | `(tactic| pstep) => `(tactic| (at_match; split))
macro_rules
  | `(tactic| pwalk) => `(tactic|
    repeat' (first
      | (at_bind MonadState.get; refine PT.bind0 IT.get (fun s hs => ?_); have hlen := GoodPop.len (Mid.toGoodPop hs))
      | (at_bind draw; refine PT.bind0 (IT.draw (by dprim)) (fun _ _ => ?_))
      | (at_bind draw; refine PT.bindD ?_ (fun _ => ?_); focus (dgo; done))
      | (at_head replaceLoop; refine PT.weaken (PT.replaceLoop (by assumption) FA.upd ?_) (by omega) (by omega); mkgo)
      | (at_head rebindLoop; refine PT.weaken (PT.rebindLoop (by assumption) ?_) (by omega) (by omega); mkgo)
      | (at_bind buildEval; refine PT.weaken (PT.evalReplace (by assumption) ?_) (by omega) (by omega); mkgo)
      | (at_head ite; refine PT.iteS (fun _ => ?_) (fun _ => ?_))
      | (at_bind replaceLoop; refine PT.bindS (PT.replaceLoop (by assumption) FA.upd ?_) (by omega) (fun _ _ => ?_); focus (mkgo; done); iwalk)
      | (at_bind rebindLoop; refine PT.bindS (PT.rebindLoop (by assumption) ?_) (by omega) (fun _ _ => ?_); focus (mkgo; done); iwalk)
      | pstep))

/-! ## The greedy loop with the arguments of `get_better_agent` the other way round -/

/-- `agent.target = self.get_target(pos_new)`;
`self.pop[idx] = self.get_better_agent(self.pop[idx], agent, minmax)`: on equal fitness the new agent is taken
(for example `mealpy/swarm_based/JA.py:73-74`) -/
def tryBetterR (i : Nat) (p : Vec d K × X) : M c X Y Unit := do
  let t ← liftB (getTarget p.1)
  let old ← popAt i
  setAt i (getBetterAgent old ⟨p.1, t, p.2⟩ c.P.mm)

/-- As `greedyLoop`, with `tryBetterR` in `single` mode (`mealpy/swarm_based/JA.py:65-77`) -/
def greedyLoopR (n : Nat) (mk : St c X Y → Nat → D c (Vec d K × X)) : M c X Y Unit :=
  if c.swarmLike then do
    let s ← get
    let pend ← draw (buildPending n (mk s))
    let new ← liftB (updateTargets pend)
    selectGreedy new
  else
    iter n (fun i _ => do
      let s ← get
      let p ← draw (mk s i)
      tryBetterR i p) ()

theorem IT.tryBetterR {i : Nat} (hi : i < c.popSize) {p : Vec d K × X} (hp : MkOk F c p) :
    IT F J 1 1 (tryBetterR i p : M c X Y Unit) (fun _ => True) := by
  intro s hs
  have hg := hs.toGoodPop
  have hi' : i < s.pop.length := by rw [hg.len]; exact hi
  refine Wp.bind (Wp.liftB (Wp.getTarget ?_))
  refine Wp.bind (Wp.popAt hi' (Wp.setAt hi' ?_))
  have hb := getBetterAgent_cases (s.pop[i]) (⟨p.1, c.P.target p.1, p.2⟩ : Agent d K X) c.P.mm
  exact ⟨Imp.ofSlot hg hi' hp.1 hp.2 hb.1.symm hb.2.2 hb.2.1 rfl rfl rfl rfl rfl rfl, trivial⟩

theorem IT.greedyLoopR (hE : c.E.Lawful) {mk : St c X Y → Nat → D c (Vec d K × X)}
    (hmk : ∀ (s : St c X Y) (i : Nat), Mid F J s → s.pop.length = c.popSize → i < c.popSize →
      DT noErr (mk s i) (MkOk F c)) :
    IT F J c.popSize c.popSize (greedyLoopR c.popSize mk) (fun _ => True) := by
  intro s hs
  unfold Mealpy.greedyLoopR
  by_cases hm : c.swarmLike = true
  · have := IT.greedyLoop hE hmk s hs
    unfold Mealpy.greedyLoop at this
    rw [if_pos hm] at this ⊢
    exact this
  · rw [if_neg hm]
    refine IT.iterS 1 1 (by omega) (by omega) (fun i hi => ?_) s hs
    refine IT.bind0 IT.get fun s hs => ?_
    exact IT.bind0 (IT.draw (hmk s i hs hs.len hi)) fun p hp => IT.tryBetterR hi hp

theorem WT.tryBetterR {I : Inv c X Y} {i : Nat} (hi : ∀ n, I.size n → i < n) {p : Vec d K × X} (hp : I.Mk p) :
    WT Er I 1 1 (tryBetterR i p : M c X Y Unit) (fun _ => True) := by
  refine WT.bindS (WT.getTarget hp.1) (by omega) ?_
  rintro t rfl
  refine WT.bind0 (WT.popAt hi) fun old ho => ?_
  exact WT.setAt hi (better_ag ho ⟨rfl, hp.2⟩)

theorem WT.greedyLoopR {I : Inv c X Y} (hE : c.E.Lawful) {n : Nat} (hn : ∀ m, I.size m → m = n) {mk : St c X Y → Nat → D c (Vec d K × X)}
    (hmk : ∀ (s : St c X Y) (i : Nat), WInv I s → s.pop.length = n → i < n → DT Er (mk s i) I.Mk) :
    WT Er I n n (greedyLoopR n mk) (fun _ => True) := by
  unfold Mealpy.greedyLoopR
  refine WT.ite (fun hm => ?_) (fun hm => ?_)
  · have := WT.greedyLoop hE hn hmk
    unfold Mealpy.greedyLoop at this
    rw [if_pos hm] at this
    exact this
  · refine WT.iterU 1 1 (by omega) (by omega) fun i hi => ?_
    refine WT.bind0 WT.get fun s hs => ?_
    refine WT.bind0 (WT.draw (hmk s i hs (hn _ hs.len) hi)) fun p hp => ?_
    exact WT.tryBetterR (fun m h => by rw [hn m h]; exact hi) hp

theorem Framed.tryBetterR {q : Bool} {i : Nat} {p : Vec d K × X} : Framed q (tryBetterR i p : M c X Y _) :=
  .bind (.liftB .getTarget) fun _ => .bind .popAt fun _ => .setAt

theorem Framed.greedyLoopR {q : Bool} (hE : c.E.Lawful) {n : Nat} {mk : St c X Y → Nat → D c (Vec d K × X)} :
    Framed q (greedyLoopR n mk : M c X Y _) :=
  .ite (.bind .get fun _ => .bind .draw fun _ => .bind (.liftB (.updateTargets hE)) fun _ => .selectGreedy)
    (.iter fun _ _ => .bind .get fun _ => .bind .draw fun _ => .tryBetterR)

macro_rules
  | `(tactic| fprim) => `(tactic| (at_last tryBetterR; exact Framed.tryBetterR))
macro_rules
  | `(tactic| fprim) => `(tactic| (at_last greedyLoopR; exact Framed.greedyLoopR (by assumption)))

macro_rules
  | `(tactic| istep) => `(tactic| first
    | (at_head greedyLoopR; refine IT.weaken (IT.greedyLoopR (by assumption) ?_) (by omega) (by omega); mkgo)
    | (at_bind greedyLoopR; refine IT.bindS (IT.greedyLoopR (by assumption) ?_) (by omega) (fun _ _ => ?_); focus (mkgo; done))
    | (at_head tryBetterR; exact IT.weaken (IT.tryBetterR (by omega) (by dfin)) (by omega) (by omega))
    | (at_bind tryBetterR; refine IT.bindS (IT.tryBetterR (by omega) (by dfin)) (by omega) (fun _ _ => ?_)))

macro_rules
  | `(tactic| wstep) => `(tactic| first
    | (at_head greedyLoopR; refine WT.weaken (WT.greedyLoopR (by assumption) (fun _ h => h) ?_) (by omega) (by omega); mkgo)
    | (at_bind greedyLoopR; refine WT.bindS (WT.greedyLoopR (by assumption) (fun _ h => h) ?_) (by omega) (fun _ _ => ?_); focus (mkgo; done))
    | (at_bind tryBetterR; refine WT.bindS (WT.tryBetterR (by wsz) (by dfin)) (by omega) (fun _ _ => ?_))
    | (at_head tryBetterR; exact WT.weaken (WT.tryBetterR (by wsz) (by dfin)) (by omega) (by omega)))

/-! ## Indices -/

/-- `l[i]` for an index that may be negative, counted from the end -/
def nthI {α : Type} (l : List α) (i : Int) : D c α :=
  if 0 ≤ i then nth l i.toNat
  else if -i ≤ l.length then nth l (l.length - (-i).toNat)
  else dthrow .index

theorem DT.nthI {l : List α} {i : Int} (h : -(l.length : Int) ≤ i ∧ i < l.length) :
    DT Er (Mealpy.nthI l i : D c α) (fun a => a ∈ l) := by
  unfold Mealpy.nthI
  refine DT.ite (fun h0 => DT.nth_mem (by omega)) fun h0 => ?_
  exact DT.ite (fun h1 => DT.nth_mem (by omega)) fun h1 => (h1 (by omega)).elim

/-- `l[i - 1]`; the last element for `i = 0` -/
def nthPrev {α : Type} (l : List α) (i : Nat) : D c α := nthI l ((i : Int) - 1)

theorem DT.nthPrev {l : List α} {i : Nat} (h : 0 < l.length) (h' : i ≤ l.length) :
    DT Er (Mealpy.nthPrev l i : D c α) (fun a => a ∈ l) := DT.nthI (by omega)

macro_rules
  | `(tactic| dprim) => `(tactic| first
    | (at_head nthI; exact DT.nthI (by constructor <;> dside))
    | (at_head nthPrev; exact DT.nthPrev (by dside) (by dside)))

/-- python numbers made from counters -/
scoped prefix:max "♯" => Num.ofNat

/-- `l[i]` for a list of indices into a sequence of length `n` -/
macro_rules
  | `(tactic| dside) => `(tactic| (refine lt_of_lt_of_eq ?_ (Eq.symm (by assumption)); casesm* _ ∧ _; solve_by_elim))

theorem perm_range_lt {l : List Nat} {n : Nat} (h : l.Perm (List.range n)) : l.length = n ∧ ∀ i ∈ l, i < n :=
  ⟨by rw [h.length_eq, List.length_range], fun i hi => List.mem_range.1 (h.mem_iff.1 hi)⟩

theorem DT.permutation' (hE : c.E.Lawful) {n : Nat} :
    DT Er (Mealpy.permutation n : D c (List Nat)) (fun l => l.length = n ∧ ∀ i ∈ l, i < n) :=
  DT.mono (DT.permutation hE) fun _ h => perm_range_lt h

/-- `int(generator.random() * n)`: an index below `n` (a double below 1 times `n` rounds to less than `n`) -/
def randIndex (n : Nat) : D c Nat := index n

theorem DT.randIndex (hE : c.E.Lawful) {n : Nat} (h : 0 < n) : DT Er (Mealpy.randIndex n : D c Nat) (fun i => i < n) :=
  DT.index hE h

/-- `[m for _ in range(0, n)]` -/
def repM {α : Type} (n : Nat) (m : Nat → D c α) : D c (List α) :=
  iter n (fun i acc => do
    let a ← m i
    pure (acc ++ [a])) []

theorem DT.repM {n : Nat} {m : Nat → D c α} {Q : α → Prop} (h : ∀ i, i < n → DT Er (m i) Q) :
    DT Er (Mealpy.repM n m : D c (List α)) (fun l => l.length = n ∧ ∀ a ∈ l, Q a) := by
  unfold Mealpy.repM
  refine DT.iter (fun i (l : List α) => l.length = i ∧ ∀ a ∈ l, Q a) n (by simp) ?_
  rintro i l hi ⟨h1, h2⟩
  refine DT.bind (h i hi) fun a ha => DT.pure ⟨by simp [h1], ?_⟩
  intro b hb
  rcases List.mem_append.1 hb with hb | hb
  · exact h2 b hb
  · rw [List.mem_singleton.1 hb]; exact ha

theorem DT.repMT {n : Nat} {m : Nat → D c α} (h : ∀ i, i < n → DT Er (m i) (fun _ => True)) :
    DT Er (Mealpy.repM n m : D c (List α)) (fun l => l.length = n) :=
  DT.mono (DT.repM h) fun _ h => h.1

/-- `get_levy_flight_step(beta, multiplier, size=(n, n_dims), case=-1)` (`mealpy/optimizer.py:719-756`) -/
def levyRows (n : Nat) (beta multiplier : K) : D c (List (Vec d K)) := do
  let u ← repM n (fun _ => normalVec 0 (levySigma beta))
  let v ← repM n (fun _ => normalVec 0 1)
  pure (List.zipWith (fun u v => fun j => multiplier * (u j / Num.pow (Num.abs (v j) + Num.EPSILON) (1 / beta))) u v)

theorem DT.levyRows {n : Nat} {b m : K} : DT Er (Mealpy.levyRows n b m : D c (List (Vec d K))) (fun l => l.length = n) := by
  refine DT.bind (DT.repMT fun _ _ => DT.normalVec) fun u hu => ?_
  refine DT.bind (DT.repMT fun _ _ => DT.normalVec) fun v hv => ?_
  exact DT.pure (by simp [hu, hv])

/-- `int(np.ceil(np.sqrt(n)))` -/
def ceilSqrt (n : Nat) : Nat := if n.sqrt * n.sqrt = n then n.sqrt else n.sqrt + 1

theorem ceilSqrt_le {n : Nat} (h : 2 ≤ n) : 0 < ceilSqrt n ∧ ceilSqrt n ≤ n := by
  have h1 : n.sqrt * n.sqrt ≤ n := Nat.sqrt_le n
  have h2 : 0 < n.sqrt := Nat.sqrt_pos.2 (by omega)
  unfold ceilSqrt
  split
  · constructor
    · omega
    · nlinarith
  · constructor
    · omega
    · have : n.sqrt < n := Nat.sqrt_lt_self (by omega)
      omega

/-- `np.ceil` as an integer -/
def Num.ceil (x : K) : Int := -(Num.floor (-x))

/-- coordinates chosen by index -/
def atDims (dims : List Nat) (x y : Vec d K) : Vec d K := fun j => if j.val ∈ dims then y j else x j

/-- `np.linalg.norm` of a list -/
def normL (l : List K) : K := Num.sqrt (sumL (l.map (fun x => x * x)))

/-- `np.linalg.norm` of a position -/
def normV (x : Vec d K) : K := normL (List.ofFn x)

/-- `np.mean` over all entries of a list of positions -/
def meanAll (l : List (Vec d K)) : K := meanL (l.flatMap List.ofFn)

/-- `np.max` of a list, with a value for the empty list that is not used -/
def maxL (l : List K) : K := (listMax l).getD 0

/-- `np.min` of a list -/
def minL (l : List K) : K := (listMin l).getD 0

/-- `a, b = self.sample_indexes_exclude_one(generator, n, idx, n_samples=2)` -/
def sample2 (n ex : Nat) (r : Bool := false) : D c (Nat × Nat) := do
  let l ← sampleOne n ex 2 r
  unpack2 l

/-- `a, b, c = self.sample_indexes_exclude_one(generator, n, idx, n_samples=3)` -/
def sample3 (n ex : Nat) : D c (Nat × Nat × Nat) := do
  let l ← sampleOne n ex 3
  unpack3 l

/-- `i = self.sample_indexes_exclude_one(generator, n, idx, n_samples=1)`, used as a single index -/
def sample1 (n ex : Nat) : D c Nat := do
  let l ← sampleOne n ex 1
  nth l 0

theorem DT.sample2 (hE : c.E.Lawful) {n ex : Nat} {r : Bool} (h : 3 ≤ n) (hex : ex < n) :
    DT Er (Mealpy.sample2 n ex r : D c _) (fun p => p.1 < n ∧ p.2 < n ∧ p.1 ≠ ex ∧ p.2 ≠ ex) := by
  refine DT.bind (DT.sampleOne hE (by omega) (by omega) hex) ?_
  rintro l ⟨h1, h2⟩
  refine DT.mono (DT.unpack2 h1) ?_
  rintro p ⟨ha, hb, -⟩
  exact ⟨(h2 _ ha).1, (h2 _ hb).1, (h2 _ ha).2, (h2 _ hb).2⟩

theorem DT.sample3 (hE : c.E.Lawful) {n ex : Nat} (h : 4 ≤ n) (hex : ex < n) :
    DT Er (Mealpy.sample3 n ex : D c _) (fun p => p.1 < n ∧ p.2.1 < n ∧ p.2.2 < n) := by
  refine DT.bind (DT.sampleOne hE (by omega) (by omega) hex) ?_
  rintro l ⟨h1, h2⟩
  refine DT.mono (DT.unpack3 h1) ?_
  rintro p ⟨ha, hb, hc, -⟩
  exact ⟨(h2 _ ha).1, (h2 _ hb).1, (h2 _ hc).1⟩

theorem DT.sample1 (hE : c.E.Lawful) {n ex : Nat} (h : 2 ≤ n) (hex : ex < n) :
    DT Er (Mealpy.sample1 n ex : D c _) (fun i => i < n ∧ i ≠ ex) := by
  refine DT.bind (DT.sampleOne hE (by omega) (by omega) hex) ?_
  rintro l ⟨h1, h2⟩
  exact DT.mono (DT.nth_mem (by omega)) fun i hi => h2 i hi

/-- `_, (b, w), _`-style unpacking of the two best agents -/
def best2 (pop : List (Agent d K X)) : D c (Agent d K X × Agent d K X) := do
  let l ← bestAgents pop 2
  unpack2 l

theorem DT.best2 (hE : c.E.Lawful) {pop : List (Agent d K X)} (h : 2 ≤ pop.length) :
    DT Er (Mealpy.best2 pop : D c _) (fun b => b.1 ∈ pop ∧ b.2 ∈ pop) := by
  refine DT.bind (DT.bestAgents hE) ?_
  rintro l ⟨h1, h2⟩
  refine DT.mono (DT.unpack2 (by omega)) ?_
  rintro p ⟨ha, hb, -⟩
  exact ⟨h2 _ ha, h2 _ hb⟩

macro_rules
  | `(tactic| dprim) => `(tactic| first
    | (at_head permutation; exact DT.permutation' (by assumption))
    | (at_head randIndex; exact DT.randIndex (by assumption) (by dside))
    | (at_head levyRows; exact DT.levyRows)
    | (at_head sample1; exact DT.sample1 (by assumption) (by dside) (by dside))
    | (at_head sample2; exact DT.sample2 (by assumption) (by dside) (by dside))
    | (at_head sample3; exact DT.sample3 (by assumption) (by dside) (by dside))
    | (at_head best2; exact DT.best2 (by assumption) (by dside)))

macro_rules
  | `(tactic| dprim) => `(tactic| (at_head repM; refine DT.repMT (fun _ _ => ?_); focus (dgo; done)))

/-! ## Whole algorithms -/

/-- An algorithm that overrides `generate_empty_agent` (`mkExt`), `initialize_variables` (`init`) and `evolve` only. -/
def Algo.full (sf : Bool) (mkExt : Vec d K → D c X) (init : D c Y) (evolve : Nat → M c X Y Unit) : Algo c X Y where
  sortFlag := sf
  mkExt := mkExt
  initVars := init
  initialization := defaultInit mkExt
  beforeMain := Pure.pure ()
  evolve := evolve

theorem Algo.full_ok (hE : c.E.Lawful) (hP : c.P.Lawful) {sf : Bool} {mkExt : Vec d K → D c X} {init : D c Y}
    {ev : Nat → M c X Y Unit} {lo hi : Nat} (hm : ∀ x, Feas c x → DT noErr (mkExt x) (fun _ => True)) (hv : DT noErr init J)
    (h : ∀ ep, 1 ≤ ep → ep ≤ c.epoch → PT (FA c) J lo hi (ev ep) (fun _ => True)) :
    (Algo.full sf mkExt init ev).Ok (FA c) J J J c.popSize lo hi :=
  Algo.std_ok hE hP rfl rfl (fun x hx => DT.mono (hm x hx) fun _ _ => hx) hv h

theorem Algo.full_wok (hE : c.E.Lawful) (hP : c.P.Lawful) (hpos : 0 < c.popSize) {sf : Bool} {mkExt : Vec d K → D c X} {init : D c Y}
    {ev : Nat → M c X Y Unit} {lo hi : Nat} (hm : ∀ x, Feas c x → DT Er (mkExt x) (fun _ => True)) (hv : DT Er init J)
    (h : ∀ ep, 1 ≤ ep → ep ≤ c.epoch → WT Er (Inv.std c X J) lo hi (ev ep) (fun _ => True)) :
    (Algo.full sf mkExt init ev).WOk Er (Inv.std c X J) J J c.popSize c.popSize 0 0 lo hi :=
  Algo.std_wok (I := Inv.std c X J) hE hP hpos rfl (fun n hn => by change n = _ at hn; omega) rfl rfl (Inv.std_box hm) hv h

macro "fullalg " hE:ident hP:ident hc:ident ev:ident : tactic => `(tactic|
  (have hpop := Accepted.pop $hc
   refine Algo.full_ok $hE $hP (fun x hx => by dgo) (J := JT) (by dgo) (fun ep hep1 hep2 => ?_)
   unfold $ev))

macro "wplainalg " hE:ident hP:ident hc:ident ev:ident : tactic => `(tactic|
  (have hpop := Accepted.pop $hc
   refine Algo.plain_wok $hE $hP (by omega) (fun ep hep1 hep2 => ?_)
   unfold $ev))

macro "wfullalg " hE:ident hP:ident hc:ident ev:ident : tactic => `(tactic|
  (have hpop := Accepted.pop $hc
   refine Algo.full_wok $hE $hP (by omega) (fun x hx => by dgo) (J := JT) (by dgo) (fun ep hep1 hep2 => ?_)
   unfold $ev))

macro_rules
  | `(tactic| dfin) => `(tactic| exact JT.ok)

end Mealpy
