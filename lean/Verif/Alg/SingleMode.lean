import Verif.Alg.Enhanced
import Verif.Alg.Raise4
import Verif.Alg.Kit22
import Verif.Alg.GA2

/-!
# OppoTWO, LevyTWO, TSeedA and ArchOA in every mode

In `single` mode they evaluate a position before it is corrected (`mealpy/physics_based/TWO.py:215-219,307-311`, `mealpy/bio_based/TSeedA.py:111-115`,
`mealpy/physics_based/ArchOA.py:142-145`), so neither C52 nor C53 holds (`Verif/Props/Outside.lean`); what remains is proved here: the population keeps its size, evaluations are counted, nothing is raised.  (With an odd `pop_size` OppoTWO always raises, `OppoTWO.raises`.)
-/

set_option linter.unusedVariables false
set_option linter.unusedSectionVars false

namespace Mealpy
open Spec

variable {d : Nat} {K : Type} [Num K] {c : Cfg d K} {X Y : Type} {Er : Err → Prop}

theorem LT.tryBetter {I : LInv d K Y} {i : Nat} (hi : ∀ n, I.size n → i < n) {p : Vec d K × X} (hp : I.pos p.1) :
    LT Er I 1 1 (Mealpy.tryBetter i p : M c X Y Unit) (fun _ => True) := by
  unfold Mealpy.tryBetter
  exact LT.bindL (LT.getTarget hp) fun t _ => LT.bind0 (LT.popAt hi) fun a _ => LT.setAt hi

theorem LT.greedyLoop (hE : c.E.Lawful) {I : LInv d K Y} {n : Nat} (hn : ∀ m, I.size m → m = n) {mk : St c X Y → Nat → D c (Vec d K × X)}
    (hmk : ∀ (s : St c X Y) (i : Nat), LHolds I s → i < n → DT Er (mk s i) (fun p => I.pos p.1)) :
    LT Er I n n (Mealpy.greedyLoop n mk : M c X Y Unit) (fun _ => True) := by
  unfold Mealpy.greedyLoop
  refine LT.ite (fun hm => ?_) fun _ => ?_
  · refine LT.bind0 LT.get fun s hs => LT.bind0 (R := fun l => l.length = n ∧ ∀ p ∈ l, I.pos p.1) (LT.draw ?_) fun pend hp => ?_
    · exact buildPending_dt fun i hi => hmk s i hs hi
    · have := LT.updateTargets (Er := Er) (I := I) hE hm hp.2
      rw [hp.1] at this
      exact LT.bindL this fun new hnew => LT.selectGreedy fun m h => (hn m h).trans hnew.symm
  · exact LT.iterU 1 1 (by omega) (by omega) fun i hi => LT.bind0 LT.get fun s hs => LT.bind0 (LT.draw (hmk s i hs hi)) fun p hp =>
      LT.tryBetter (fun m h => by rw [hn m h]; exact hi) hp

theorem LT.tryCompare {I : LInv d K Y} {i : Nat} (hi : ∀ n, I.size n → i < n) {mkExt : Vec d K → D c X} {x : Vec d K} (hx : I.pos x)
    (h : DT Er (mkExt x) (fun _ => True)) : LT Er I 1 1 (Mealpy.tryCompare mkExt i x : M c X Y Unit) (fun _ => True) := by
  unfold Mealpy.tryCompare
  exact LT.bindL (LT.agentOf hx h) fun a _ => LT.bind0 (LT.popAt hi) fun b _ => LT.ite (fun _ => LT.setAt hi) fun _ => LT.pure trivial

/-- anything may be evaluated -/
abbrev TWO.LI (c : Cfg d K) : LInv d K Unit := ⟨fun _ => True, fun n => n = c.popSize, JT⟩

namespace OriginalTWO

theorem dt_weighL {l : List (Agent d K K)} (hl : l.length = c.popSize) : DT Er (weigh l : D c _) (fun r => r.length = c.popSize) := by
  unfold weigh
  refine DT.bind (R := fun fs => fs.length = c.popSize) (DT.ite (fun _ => DT.mono (DT.repMT fun i _ => DT.uniform') fun fs h => h) fun _ => DT.pure (by rw [List.length_map]; exact hl)) fun fs hfs => ?_
  rw [if_neg (by omega)]
  exact DT.pure (by rw [List.length_zipWith, List.length_map, hfs, hl, Nat.min_self])

end OriginalTWO

namespace OppoTWO

theorem lt_settle (hE : c.E.Lawful) (hP : c.P.Lawful) {mk : St c K Unit → Nat → D c (Vec d K × K)}
    (hmk : ∀ s i, s.pop.length = c.popSize → i < c.popSize → DT Er (mk s i) (fun _ => True)) :
    LT Er (TWO.LI c) c.popSize c.popSize (settle mk : M c K Unit _) (fun l => l.length = c.popSize) := by
  unfold settle
  refine LT.ite (fun _ => ?_) fun _ => ?_
  · exact LT.buildEval hE fun s i hs hi => DT.bind (hmk s i hs.len hi) fun q _ => DT.bind (DT.correct hP) fun pos hp => DT.pure trivial
  · refine LT.iterS 1 1 (fun i (l : List (Agent d K K)) => l.length = i) (by omega) (by omega) rfl fun i l hi hl => ?_
    exact LT.bind0 LT.get fun s hs => LT.bind0 (LT.draw (hmk s i hs.len hi)) fun q _ => LT.bind0 (LT.draw (DT.correct hP)) fun pos _ =>
      LT.bindL (LT.getTarget trivial) fun t _ => LT.pure (by simp; exact hl)

theorem lt_reweigh : LT Er (TWO.LI c) 0 0 (reweigh : M c K Unit Unit) (fun _ => True) := by
  unfold reweigh
  exact LT.bind0 LT.get fun s hs => LT.bind0 (LT.draw (OriginalTWO.dt_weighL hs.len)) fun l hl => LT.setPop hl

theorem dt_mendL {ep : Nat} {ps : List (Vec d K)} {s : St c K Unit} {i : Nat} (hps : ps.length = c.popSize) (hl : s.pop.length = c.popSize) (hi : i < c.popSize) :
    DT Er (mend ep ps s i : D c _) (fun _ => True) := DT.lax (dt_mend hps hl hi)

/-- the half drawn and its mirror image are weighed -/
theorem bt_restOf (hE : c.E.Lawful) (hP : c.P.Lawful) (hn : 0 < c.popSize) {Q : List (Agent d K K) → Prop}
    (hw : ∀ l : List (Agent d K K), l.length = c.popSize / 2 + c.popSize / 2 → DT Er (OriginalTWO.weigh l : D c _) Q)
    {y : Unit} {pop : List (Agent d K K)} (hl : pop.length = c.popSize) :
    BT Er (c.popSize / 2) (c.popSize / 2) (initialization y (some pop) : B c (List (Agent d K K) × Unit)) (fun r => Q r.1) := by
  unfold initialization startPop
  rw [pure_bind]
  refine BT.bind0 (BT.liftD (DT.choice hE (choiceErr_false hn (by omega)))) fun is his => ?_
  have hlen := his.1
  refine BT.bind0 (BT.liftD (DT.repM (Q := fun a => True) fun i hi => DT.bind (DT.nth_mem (by omega)) fun k hk => ?_)) fun half hhalf => ?_
  · have := his.2.1 k hk
    exact DT.mono (DT.nth_mem (by omega)) fun a ha => trivial
  have h1 := hhalf.1
  refine BT.bindS (BT.buildB hE fun i hi => DT.bind (DT.nth_mem (by omega)) fun a _ => DT.bind (DT.correct hP) fun pos hp => DT.pure hp) le_rfl fun oppo hoppo => ?_
  have h3 := hoppo.1
  exact BT.bind0 (BT.liftD (hw _ (by rw [List.length_append]; omega))) fun l hl' => BT.weaken (BT.pure hl') (by omega) (by omega)

theorem bt_noneOf (hE : c.E.Lawful) (hP : c.P.Lawful) (hn : 0 < c.popSize) {Q : List (Agent d K K) → Prop}
    (hw : ∀ l : List (Agent d K K), l.length = c.popSize / 2 + c.popSize / 2 → DT Er (OriginalTWO.weigh l : D c _) Q) {y : Unit} :
    BT Er (c.popSize + c.popSize / 2) (c.popSize + c.popSize / 2) (initialization y none : B c (List (Agent d K K) × Unit)) (fun r => Q r.1) := by
  have hb : (initialization y none : B c (List (Agent d K K) × Unit)) = (do
      let pop ← generatePopulation (fun _ => pure 0) c.popSize
      initialization y (some pop)) := by
    unfold initialization startPop
    simp only [pure_bind]
  rw [hb]
  exact BT.bind (BT.generatePopulation hE hP fun x _ => DT.pure trivial) fun pop hpop => bt_restOf hE hP hn hw hpop.1

/-- what holds in every mode -/
theorem lok (hE : c.E.Lawful) (hP : c.P.Lawful) (hc : Accepted c 5) (h2 : c.popSize % 2 = 0) :
    (algo : Algo c K Unit).LOk (only []) (TWO.LI c) JT JT (c.popSize + c.popSize / 2) (c.popSize + c.popSize / 2) 0 0
      (c.popSize + c.popSize) (c.popSize + c.popSize) := by
  have hpop := hc.pop
  have hw : ∀ l : List (Agent d K K), l.length = c.popSize / 2 + c.popSize / 2 → DT (only []) (OriginalTWO.weigh l : D c _) (fun r => r.length = c.popSize) :=
    fun l hl => OriginalTWO.dt_weighL (by omega)
  refine Algo.custom_lok (I := TWO.LI c) (fun n hn => by have : n = c.popSize := hn; omega) (fun _ _ => trivial) (fun _ _ => DT.pure trivial) (DT.pure trivial)
    (by omega) (fun y _ => BT.mono (bt_noneOf hE hP (by omega) hw) fun r h => ⟨h, trivial⟩)
    (fun y pop _ hl => BT.weaken (BT.mono (bt_restOf hE hP (by omega) hw hl) fun r h => ⟨h, trivial⟩) (by omega) (by omega)) fun ep _ _ => ?_
  unfold evolve
  refine LT.bind0 LT.get fun s hs => LT.bind0 (LT.draw (DT.lax (OriginalTWO.dt_pull hs.len))) fun ps hps => ?_
  refine LT.bind (lt_settle hE hP fun s i hl hi => dt_mendL hps hl hi) fun new hnew => LT.bind0 (LT.setPop hnew) fun _ _ => ?_
  refine LT.bindL (LT.greedyLoop hE (fun m h => h) fun s i hs hi => ?_) fun _ _ => lt_reweigh
  have hl : s.pop.length = c.popSize := hs.len
  exact DT.bind (DT.nth_mem (by omega)) fun a _ => DT.bind (DT.oppositionSol hP) fun y _ => DT.bind (DT.correct hP) fun pos _ => DT.pure trivial

end OppoTWO

namespace LevyTWO

/-- what holds in every mode -/
theorem lok (hE : c.E.Lawful) (hP : c.P.Lawful) (hc : Accepted c 5) :
    (algo : Algo c K Unit).LOk (only []) (TWO.LI c) JT JT c.popSize c.popSize 0 0 c.popSize (c.popSize + c.popSize) := by
  have hpop := hc.pop
  refine Algo.custom_lok (I := TWO.LI c) (fun n hn => by have : n = c.popSize := hn; omega) (fun _ _ => trivial) (fun _ _ => DT.pure trivial) (DT.pure trivial)
    (by omega) (fun y _ => ?_) (fun y pop _ hl => ?_) fun ep _ _ => ?_
  · unfold OriginalTWO.initialization startPop
    exact BT.bindS (BT.generatePopulation hE hP fun x _ => DT.pure trivial) le_rfl fun pop hpop =>
      BT.bind0 (BT.liftD (OriginalTWO.dt_weighL hpop.1)) fun l hl => BT.weaken (BT.pure ⟨hl, trivial⟩) (by omega) (by omega)
  · unfold OriginalTWO.initialization startPop
    rw [pure_bind]
    exact BT.bind0 (BT.liftD (OriginalTWO.dt_weighL hl)) fun l hl' => BT.weaken (BT.pure ⟨hl', trivial⟩) (by omega) (by omega)
  unfold evolve
  refine LT.bind0 LT.get fun s hs => LT.bind0 (LT.draw (DT.lax (OriginalTWO.dt_pull hs.len))) fun ps hps => ?_
  refine LT.bindS (OppoTWO.lt_settle hE hP fun s i hl hi => ?_) (by omega) fun new hnew => LT.bind0 (LT.setPop hnew) fun _ _ => ?_
  · unfold mend
    exact DT.bind (DT.nth_mem (by omega)) fun x _ => DT.bind (DT.lax OriginalTWO.dt_repair) fun y _ => DT.bind (DT.nth_mem (by omega)) fun a _ => DT.pure trivial
  refine LT.bindL (LT.iterU 0 1 (by omega) (by omega) fun i hi => ?_) fun _ _ => OppoTWO.lt_reweigh
  unfold fly
  refine LT.bind0 (R := fun _ => True) (LT.draw DT.random') fun r _ => LT.ite (fun _ => ?_) fun _ => LT.weaken (LT.pure trivial) (by omega) (by omega)
  refine LT.bind0 (R := fun _ => True) (LT.draw (by dgo)) fun l _ => LT.bind0 (LT.popAt fun n h => by have : n = c.popSize := h; omega) fun a _ =>
    LT.bind0 (LT.draw (DT.correct hP)) fun pos _ => LT.weaken (LT.tryCompare (fun n h => by have : n = c.popSize := h; omega) trivial (DT.pure trivial)) (by omega) (by omega)

end LevyTWO

namespace OriginalTSeedA

theorem dt_seed (hP : c.P.Lawful) {p : Params K} {s : St c Unit Unit} {idx rdx : Nat} (h1 : idx < s.pop.length) (h2 : rdx < s.pop.length) :
    DT Er (seed p s idx rdx : D c _) (fun _ => True) := by
  unfold seed
  exact DT.bind (DT.nth_mem h1) fun x _ => DT.bind (DT.nth_mem h2) fun y _ => DT.bind DT.uniformVec' fun al _ =>
    DT.bind DT.randomVec fun r _ => DT.bind (DT.correct hP) fun pos hpos => DT.pure trivial

/-- what holds in every mode -/
theorem lok (hE : c.E.Lawful) (hP : c.P.Lawful) (hc : Accepted c 5) (p : Params K) :
    (algo p : Algo c Unit Unit).LOk (only []) (TWO.LI c) JT JT c.popSize c.popSize 0 0
      (c.popSize * max 1 (c.popSize / 10)) (c.popSize * max 2 (c.popSize / 4)) := by
  have hpop := hc.pop
  refine Algo.plain_lok (pos := fun _ => True) hE hP (by omega) (fun _ _ => trivial) fun ep _ _ => ?_
  unfold evolve
  refine LT.iterU _ _ le_rfl le_rfl fun idx hi => ?_
  unfold round
  refine LT.bind0 (LT.draw (DT.integers hE (by omega))) fun n hn => ?_
  refine LT.bind0 (LT.draw (DT.sampleOne hE (by omega) (by omega) hi)) fun rs hrs => ?_
  refine LT.weaken (lo := n.toNat) (hi := n.toNat) ?_ (by omega) (by omega)
  refine LT.bindL (R := fun l => l.length = n.toNat) ?_ fun new hnew => ?_
  · unfold seeds
    refine LT.ite (fun _ => LT.buildEval hE fun s i hs hi => ?_) fun _ => ?_
    · have hl : s.pop.length = c.popSize := hs.len
      refine DT.bind (DT.nth_mem (by omega)) fun rdx hr => ?_
      have := (hrs.2 rdx hr).1
      exact DT.bind (dt_seed hP (by omega) (by omega)) fun q _ => DT.pure trivial
    · refine LT.iterS 1 1 (fun i (l : List (Agent d K Unit)) => l.length = i) (by omega) (by omega) rfl fun i l hi hl => ?_
      refine LT.bind0 LT.get fun s hs => LT.bind0 (LT.draw (DT.nth_mem (by omega))) fun rdx hr => ?_
      have hl' : s.pop.length = c.popSize := hs.len
      have := (hrs.2 rdx hr).1
      exact LT.bind0 (LT.draw (dt_seed hP (by omega) (by omega))) fun q _ => LT.bindL (LT.getTarget trivial) fun t _ => LT.pure (by simp; exact hl)
  · refine LT.bind0 (LT.draw (DT.bestAgent' hE (by omega))) fun b _ => ?_
    unfold slotComp
    have hs : ∀ n, (TWO.LI c).size n → idx < n := fun n h => by have : n = c.popSize := h; omega
    exact LT.bind0 (LT.popAt hs) fun old _ => LT.ite (fun _ => LT.setAt hs) fun _ => LT.pure trivial

end OriginalTSeedA

namespace OriginalArchOA

/-- what holds in every mode -/
theorem lok (hE : c.E.Lawful) (hP : c.P.Lawful) (hc : Accepted c 5) (p : Params K) :
    (algo p : Algo c (Att d K) Unit).LOk (only []) (TWO.LI c) JT JT c.popSize c.popSize 0 0 c.popSize c.popSize := by
  have hpop := hc.pop
  refine Algo.std_lok (A := algo p) (I := TWO.LI c) hE hP rfl (fun n hn => by have : n = c.popSize := hn; omega) (fun _ _ => trivial) rfl rfl
    (fun x => dt_mkExt (x := x) fun _ => trivial) (DT.pure trivial) fun ep _ _ => ?_
  show LT _ _ _ _ (evolve p ep : M c (Att d K) Unit Unit) _
  unfold evolve
  refine LT.bind0 LT.get fun s hs => ?_
  have hlen : s.pop.length = c.popSize := hs.len
  refine LT.bind0 (R := fun _ => True) (LT.draw (by unfold atts; exact DT.mono (DT.repMT fun i hi => by dgo) fun _ _ => trivial)) fun l _ => ?_
  unfold mapExt
  refine LT.bind0 (LT.reshape fun pop h => by simpa using h) fun _ _ => LT.ite (fun _ => ?_) fun _ => ?_
  · refine LT.greedyLoop hE (fun m h => h) fun s i hs hi => DT.bind (dt_move hs.len hi) ?_
    rintro ⟨y, e⟩ -
    exact DT.bind (DT.correct hP) fun pos hpos => DT.pure trivial
  · refine LT.iterU 1 1 (by omega) (by omega) fun idx hi => LT.bind0 LT.get fun s hs => LT.bind0 (LT.draw (dt_move hs.len hi)) ?_
    rintro ⟨y, e⟩ -
    have hs : ∀ n, (TWO.LI c).size n → idx < n := fun n h => by have : n = c.popSize := h; omega
    exact LT.bind0 (LT.draw (DT.correct hP)) fun pos _ => LT.bindL (LT.getTarget trivial) fun t _ => LT.bind0 (LT.popAt hs) fun old _ => LT.setAt hs

end OriginalArchOA

end Mealpy
