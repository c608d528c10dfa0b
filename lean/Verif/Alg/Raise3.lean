import Verif.Alg.FOA
import Verif.Alg.Sharing
import Verif.Alg.Risky
import Verif.Alg.Simple14
import Verif.Alg.Simple8
import Verif.Alg.Simple6
import Verif.Alg.Simple5
import Verif.Alg.Simple2

/-! # Runs that always raise, whatever attributes the agents have -/

set_option linter.unusedSectionVars false
set_option linter.unusedVariables false

namespace Mealpy
open Spec

variable {d : Nat} {K : Type} [Num K] {c : Cfg d K} {X Y α β : Type} {e : Err} {Er : Err → Prop} {lo hi lo' hi' : Nat}

section
variable {I : LInv d K Y}

/-- a program that never returns satisfies any contract -/
theorem LT.never {m : M c X Y α} {R : α → Prop} (h : LT Er I lo hi m (fun _ => False)) : LT Er I lo' hi' m R :=
  fun s hs => Wp.mono (h s hs) fun _ _ h => h.2.elim

theorem LT.neverBind {m : M c X Y α} {f : α → M c X Y β} {R : β → Prop} (h : LT Er I lo hi m (fun _ => False)) : LT Er I lo' hi' (m >>= f) R :=
  fun s hs => Wp.bind (Wp.mono (h s hs) fun _ _ h => h.2.elim)

/-- the `k`-th round never returns -/
theorem LT.iterNever {n k l1 h1 : Nat} {f : Nat → α → M c X Y α} {a : α} {R : α → Prop} (hk : k < n)
    (h : ∀ i a, i < k → LT Er I l1 h1 (f i a) (fun _ => True)) (h' : ∀ a, LT Er I lo hi (f k a) (fun _ => False)) :
    LT Er I lo' hi' (Mealpy.iter n f a) R := by
  intro s hs
  refine Wp.mono (Wp.iter (fun i _ (s' : St c X Y) => i ≤ k ∧ LHolds I s') n ⟨Nat.zero_le k, hs⟩ ?_) fun _ _ h => by omega
  rintro i a s' hi ⟨hik, hs'⟩
  rcases Nat.lt_or_eq_of_le hik with g | rfl
  · exact Wp.mono (h i a g s' hs') fun _ _ q => ⟨by omega, q.1.inv⟩
  · exact Wp.mono (h' a s' hs') fun _ _ q => q.2.elim

/-- likewise for a list of positions -/
theorem DT.repMNever {n k : Nat} {f : Nat → D c α} {R : List α → Prop} (hk : k < n)
    (h : ∀ i, i < k → DT Er (f i) (fun _ => True)) (h' : DT Er (f k) (fun _ => False)) : DT Er (Mealpy.repM n f) R := by
  intro g
  refine Wp.mono (Wp.iter (fun i _ _ => i ≤ k) n (Nat.zero_le k) ?_) fun _ _ h => by omega
  rintro i a g' hi hik
  rcases Nat.lt_or_eq_of_le hik with q | rfl
  · exact Wp.bind (Wp.mono (h i q g') fun _ _ _ => Wp.pure (by omega))
  · exact Wp.bind (Wp.mono (h' g') fun _ _ q => q.elim)

/-- if `evolve` never returns, a run raises -/
theorem Algo.LOk.raises {A : Algo c X Y} {J0 J1 : Y → Prop} {i : Nat} (hA : A.LOk (fun x => x = e) I J0 J1 i i 0 0 1 0) (hE : c.E.Lawful)
    (hpos : 0 < c.popSize) (hep : 0 < c.epoch) (o : RunOpts K) (hst : FeasibleStart c o.starting) (b : Base c) (hb : b.log = []) :
    Mealpy.solve A o b = .error e := by
  have := hA.solve hE hpos hep o hst b hb
  revert this
  cases Mealpy.solve A o b with
  | ok q =>
    intro h
    have h1 := h.budget_lo
    have h2 := h.budget_hi
    have h3 := h.epochs
    omega
  | error x => exact fun h => by rw [h]

/-- if `initialization` never returns, a run raises -/
theorem init_raises {A : Algo c X Y} (hE : c.E.Lawful) (hpos : 0 < c.popSize) (hep : 0 < c.epoch)
    (hmk : ∀ x, Feas c x → DT (fun x => x = e) (A.mkExt x) (fun _ => True)) (hv : DT (fun x => x = e) A.initVars (fun _ => True))
    (hi : ∀ y p b, (∀ pop, p = some pop → pop.length = c.popSize) → Wp (fun x => x = e) (A.initialization y p) b (fun _ _ => False))
    (o : RunOpts K) (hst : FeasibleStart c o.starting) (b : Base c) (hb : b.log = []) : Mealpy.solve A o b = .error e := by
  have hA : A.LOk (fun x => x = e) ⟨fun _ => True, fun _ => False, JT⟩ JT JT 0 0 0 0 1 0 :=
    { box := fun _ _ => trivial
      nonempty := fun _ h => h.elim
      mkExt := hmk
      initVars := DT.mono hv fun _ _ => trivial
      init := fun y p b _ hp => Wp.mono (hi y p b hp) fun _ _ h => h.elim
      before := fun s hs => hs.len.elim
      evolve := fun _ _ _ s hs => hs.len.elim }
  exact hA.raises hE hpos hep o hst b hb

theorem DT.normalArr_never {loc scale : Vec d K} (h : ∃ j, scale j < 0) (he : Er .value) {R : Vec d K → Prop} :
    DT Er (Mealpy.normalArr loc scale : D c (Vec d K)) R := by
  unfold Mealpy.normalArr
  exact DT.ite (fun _ => DT.throw he) fun g => absurd h g

end

namespace OriginalFOA

theorem fly_never (hpos : 0 < c.popSize) {f : St c Unit Unit → Nat → D c (Vec d K)}
    (hf : ∀ (s : St c Unit Unit), s.pop.length = c.popSize → DT Er (f s 0) (fun _ => False)) : LT Er (LI c) lo hi (fly f) (fun _ => True) := by
  unfold fly
  refine LT.ite (fun hm => ?_) fun _ => ?_
  · refine LT.bind0 LT.get fun s hs => LT.neverBind (LT.draw (DT.repMNever hpos (fun i hi => absurd hi (Nat.not_lt_zero i)) ?_))
    exact DT.bind (hf s hs.len) fun _ h => h.elim
  · refine LT.iterNever (l1 := 0) (h1 := 0) (lo := 0) (hi := 0) hpos (fun i _ hi => absurd hi (Nat.not_lt_zero i)) fun _ => ?_
    exact LT.bind0 LT.get fun s hs => LT.neverBind (LT.draw (hf s hs.len))

theorem mk_never (hpos : 0 < c.popSize) (hu : ∃ j, c.P.ub j < 0) {s : St c Unit Unit} (hs : s.pop.length = c.popSize) :
    DT (fun x => x = Err.value) (mk s 0 : D c (Vec d K)) (fun _ => False) := by
  unfold mk
  exact DT.bind (R := fun _ => True) (DT.nth (by omega) trivial) fun me _ => DT.bind (R := fun _ => True) (by dprim) fun u _ =>
    DT.bind (R := fun _ => False) (DT.normalArr_never (Er := fun x => x = Err.value) hu rfl) fun _ h => h.elim

theorem raises (hE : c.E.Lawful) (hP : c.P.Lawful) (hc : Accepted c 5) (hu : ∃ j, c.P.ub j < 0)
    (o : RunOpts K) (hst : FeasibleStart c o.starting) (b : Base c) (hb : b.log = []) : solve (algo : Algo c Unit Unit) o b = .error .value := by
  have hpop := hc.pop
  have hep := hc.epoch
  exact (start_lok hE hP (by omega) fun ep => fly_never (by omega) fun s hs => mk_never (by omega) hu hs).raises hE (by omega) (by omega) o hst b hb

end OriginalFOA

namespace DevFOA

theorem mk_never (hpos : 0 < c.popSize) (hu : ∃ j, c.P.ub j < 0) {ep : Nat} {s : St c Unit Unit} (hs : s.pop.length = c.popSize) :
    DT (fun x => x = Err.value) (mk ep s 0 : D c (Vec d K)) (fun _ => False) := by
  unfold mk
  exact DT.bind (R := fun _ => True) (DT.nth (by omega) trivial) fun me _ =>
    DT.bind (R := fun _ => False) (DT.normalArr_never (Er := fun x => x = Err.value) hu rfl) fun _ h => h.elim

theorem raises (hE : c.E.Lawful) (hP : c.P.Lawful) (hc : Accepted c 5) (hu : ∃ j, c.P.ub j < 0)
    (o : RunOpts K) (hst : FeasibleStart c o.starting) (b : Base c) (hb : b.log = []) : solve (algo : Algo c Unit Unit) o b = .error .value := by
  have hpop := hc.pop
  have hep := hc.epoch
  exact (OriginalFOA.start_lok hE hP (by omega) fun ep => OriginalFOA.fly_never (by omega) fun s hs => mk_never (by omega) hu hs).raises hE
    (by omega) (by omega) o hst b hb

end DevFOA

namespace OriginalBeesA

/-- when no bees are sent to the first site, the best of them does not exist (`mealpy/swarm_based/BeesA.py:231-241`) -/
theorem raises (hE : c.E.Lawful) (hP : c.P.Lawful) (hc : Accepted c 5) (p : Params K) (h : 1 ≤ p.selected) (h1 : p.selectedLocal = 0) (h2 : p.eliteLocal = 0)
    (o : RunOpts K) (hst : FeasibleStart c o.starting) (b : Base c) (hb : b.log = []) : solve (algo p : Algo c Nat Nat) o b = .error .index := by
  have hpop := hc.pop
  have hep := hc.epoch
  refine (Algo.tagged_lok (Er := fun x => x = Err.index) (pos := fun _ => True) (lo := 1) (hi := 0) hE hP (by omega) (fun _ _ => trivial) fun ep _ _ => ?_).raises hE (by omega) (by omega) o hst b hb
  unfold evolve
  dsimp only
  refine LT.neverBind (lo := 0) (hi := 0) ?_
  unfold collect
  refine LT.iterNever (l1 := 0) (h1 := 0) (lo := 0) (hi := 0) (k := 0) (by omega) (fun i _ hi => absurd hi (Nat.not_lt_zero i)) fun _ => ?_
  refine LT.neverBind (lo := 0) (hi := 0) ?_
  unfold visit
  generalize (if ep = 1 then p.radius0 else p.reduction * p.radius) = r
  dsimp only
  rw [if_pos (Or.inl (by omega : 0 < p.selected))]
  refine LT.neverBind (lo := 0) (hi := 0) ?_
  have h0 : (if 0 < p.elite then p.eliteLocal else p.selectedLocal) = 0 := by split <;> omega
  rw [h0]
  unfold site
  have g1 : LT (fun x => x = Err.index) (⟨fun _ => True, fun n => n = c.popSize, JT⟩ : LInv d K Nat) 0 0
      (collect 0 (fun _ => dance r 0) : M c Nat Nat _) (fun l => l.length = 0 ∧ ∀ q ∈ l, True) :=
    LT.weaken (lo := 0 * 0) (hi := 0 * 0) (LT.collect fun i hi => absurd hi (Nat.not_lt_zero i)) (by omega) (by omega)
  refine LT.bind0 g1 fun pend hp => ?_
  have g2 := LT.evalAll (Er := fun x => x = Err.index) (I := (⟨fun _ => True, fun n => n = c.popSize, JT⟩ : LInv d K Nat)) hE (pend := pend) fun _ _ => trivial
  rw [hp.1] at g2
  refine LT.bind0 g2 fun kids hk => ?_
  have hk' : kids = [] := List.eq_nil_of_length_eq_zero hk
  subst hk'
  exact LT.draw (DT.mono (DT.bestAgent_err hE rfl) fun a ha => absurd ha List.not_mem_nil)

end OriginalBeesA

namespace ABFO

/-- with `N_adapt = 0` the test whether a bacterium splits divides by zero (`mealpy/swarm_based/BFO.py:298`) -/
theorem raises (hE : c.E.Lawful) (hP : c.P.Lawful) (hc : Accepted c 5) (p : Params K) (h : p.adapt = 0)
    (o : RunOpts K) (hst : FeasibleStart c o.starting) (b : Base c) (hb : b.log = []) :
    solve (algo p : Algo c (Own d K) (Vec d K × Vec d K)) o b = .error .zeroDiv := by
  have hpop := hc.pop
  have hep := hc.epoch
  have hsz : ∀ n, n = c.popSize → 0 < n := fun n hn => by omega
  refine (Algo.std_lok (Er := fun x => x = Err.zeroDiv) (I := (⟨fun _ => True, fun n => n = c.popSize, JT⟩ : LInv d K (Vec d K × Vec d K)))
    (lo := 1) (hi := 0) hE hP rfl hsz (fun _ _ => trivial) rfl rfl (fun _ => DT.pure trivial) (DT.pure trivial) fun ep _ _ => ?_).raises hE (by omega) (by omega) o hst b hb
  show LT _ _ _ _ (evolve p ep) _
  unfold evolve
  refine LT.neverBind (lo := 0) (hi := 0) ?_
  refine LT.iterNever (l1 := 0) (h1 := 0) (lo := p.ns) (hi := p.ns) (k := 0) (by omega) (fun i _ hi => absurd hi (Nat.not_lt_zero i)) fun _ => ?_
  unfold live
  refine LT.bind0 (LT.popAt hsz) fun a _ => LT.bind0 LT.get fun s _ => ?_
  refine LT.bindS (l1 := p.ns) (h1 := p.ns) (LT.iterU 1 1 (by omega) (by omega) fun i hi => ?_) (by omega) fun _ _ => LT.neverBind (lo := 0) (hi := 0) ?_
  · unfold swim
    refine LT.bind0 (LT.popAt hsz) fun a _ => LT.bind0 LT.get fun s _ => LT.bind0 (LT.draw (R := fun _ => True) ?_) fun x _ => LT.bindL (LT.getTarget trivial) fun t _ => ?_
    · unfold move
      exact DT.bind (R := fun _ => True) (DT.ite (fun _ => DT.uniformVec') fun _ => DT.pure trivial) fun u _ => DT.mono (DT.correct hP) fun _ _ => trivial
    · exact LT.ite (fun _ => LT.setAt hsz) fun _ => LT.setAt hsz
  · unfold splitting
    exact LT.bind0 (LT.popAt hsz) fun a _ => LT.bind0 LT.get fun s _ => LT.ite (fun _ => LT.throw rfl) fun g => absurd h g

end ABFO

namespace OppoTWO

/-- with an odd `pop_size` the initial population is one agent short and weighing it raises (`mealpy/physics_based/TWO.py:80-89,171-186`) -/
theorem raises (hE : c.E.Lawful) (hP : c.P.Lawful) (hc : Accepted c 5) (h : c.popSize % 2 = 1)
    (o : RunOpts K) (hst : FeasibleStart c o.starting) (b : Base c) (hb : b.log = []) : solve (algo : Algo c K Unit) o b = .error .index := by
  have hpop := hc.pop
  have hep := hc.epoch
  have key : ∀ (pop : List (Agent d K K)), pop.length = c.popSize → BT (fun x => x = Err.index) (c.popSize / 2) (c.popSize / 2)
      (initialization () (some pop) : B c (List (Agent d K K) × Unit)) (fun _ => False) := by
    intro pop hl
    unfold initialization startPop
    rw [pure_bind]
    refine BT.bind0 (BT.liftD (DT.choice hE (choiceErr_false (by omega) (by omega)))) fun is his => ?_
    have hlen := his.1
    refine BT.bind0 (BT.liftD (DT.repM (Q := fun _ => True) fun i hi => DT.bind (DT.nth_mem (by omega)) fun k hk => ?_)) fun half hhalf => ?_
    · have := his.2.1 k hk
      exact DT.nth (by omega) trivial
    have h1 := hhalf.1
    refine BT.bindS (BT.buildB hE fun i hi => DT.bind (DT.nth_mem (by omega)) fun a _ => DT.bind (DT.correct hP) fun pos hp => DT.pure hp) le_rfl fun oppo hoppo => ?_
    have h3 := hoppo.1
    refine BT.weaken (BT.bind0 (R := fun _ => False) (BT.liftD ?_) fun _ h => h.elim) (lo := 0) (hi := 0) (by omega) (by omega)
    unfold OriginalTWO.weigh
    dsimp only
    refine DT.bind (R := fun _ => True) (DT.ite (fun _ => DT.mono (DT.repM (Q := fun _ => True) fun _ _ => DT.uniform') fun _ _ => trivial) fun _ => DT.pure trivial) fun fs _ => ?_
    rw [if_pos (by rw [List.length_append]; omega)]
    exact DT.throw rfl
  refine init_raises hE (by omega) (by omega) (fun _ _ => DT.pure trivial) (DT.pure trivial) (fun y p b hp => ?_) o hst b hb
  cases p with
  | some pop => exact Wp.mono (key pop (hp pop rfl) b) fun _ _ h => h.2
  | none =>
    have hb : (initialization y none : B c (List (Agent d K K) × Unit)) = (do
        let pop ← generatePopulation (fun _ => pure 0) c.popSize
        initialization y (some pop)) := by
      unfold initialization startPop
      simp only [pure_bind]
    show Wp _ (initialization y none : B c (List (Agent d K K) × Unit)) b _
    rw [hb]
    exact Wp.mono ((BT.bind (BT.generatePopulation hE hP fun x _ => DT.pure trivial) fun pop hpop => key pop hpop.1) b) fun _ _ h => h.2

end OppoTWO

/-- with a single epoch the quality function divides by zero (`mealpy/swarm_based/AO.py:82`) -/
theorem OriginalAO.quality_never (h : c.epoch = 1) {ep : Nat} {R : K → Prop} : DT (fun x => x = Err.zeroDiv) (OriginalAO.quality ep : D c K) R := by
  unfold OriginalAO.quality
  refine DT.bind DT.random' fun r _ => ?_
  rw [if_pos h]
  exact DT.throw rfl

theorem OriginalAO.raises (hE : c.E.Lawful) (hP : c.P.Lawful) (hc : Accepted c 5) (h : c.epoch = 1)
    (o : RunOpts K) (hst : FeasibleStart c o.starting) (b : Base c) (hb : b.log = []) :
    solve (OriginalAO.algo : Algo c Unit Unit) o b = .error .zeroDiv := by
  have hpop := hc.pop
  refine (Algo.plain_lok (Er := fun x => x = Err.zeroDiv) (pos := fun _ => True) (lo := 1) (hi := 0) hE hP (by omega) (fun _ _ => trivial) fun ep _ _ => ?_).raises hE
    (by omega) (by omega) o hst b hb
  unfold OriginalAO.evolve
  exact LT.bind0 (LT.draw DT.random') fun u _ => LT.neverBind (LT.draw (OriginalAO.quality_never h))

theorem AAO.raises (hE : c.E.Lawful) (hP : c.P.Lawful) (hc : Accepted c 5) (p : AAO.Params K) (h : c.epoch = 1)
    (o : RunOpts K) (hst : FeasibleStart c o.starting) (b : Base c) (hb : b.log = []) :
    solve (AAO.algo p : Algo c Unit Unit) o b = .error .zeroDiv := by
  have hpop := hc.pop
  refine (Algo.plain_lok (Er := fun x => x = Err.zeroDiv) (pos := fun _ => True) (lo := 1) (hi := 0) hE hP (by omega) (fun _ _ => trivial) fun ep _ _ => ?_).raises hE
    (by omega) (by omega) o hst b hb
  unfold AAO.evolve
  exact LT.bind0 (LT.draw DT.random') fun u _ => LT.neverBind (LT.draw (OriginalAO.quality_never h))

theorem OriginalDandelionO.raises (hE : c.E.Lawful) (hP : c.P.Lawful) (hc : Accepted c 5) (h : c.epoch = 1)
    (o : RunOpts K) (hst : FeasibleStart c o.starting) (b : Base c) (hb : b.log = []) :
    solve (OriginalDandelionO.algo : Algo c Unit Unit) o b = .error .zeroDiv := by
  have hpop := hc.pop
  refine (Algo.plain_lok (Er := fun x => x = Err.zeroDiv) (pos := fun _ => True) (lo := 1) (hi := 0) hE hP (by omega) (fun _ _ => trivial) fun ep _ _ => ?_).raises hE
    (by omega) (by omega) o hst b hb
  unfold OriginalDandelionO.evolve
  refine LT.bind0 LT.get fun s _ => LT.bind0 (LT.draw DT.random') fun u _ => LT.neverBind (LT.draw ?_)
  unfold OriginalDandelionO.slope
  rw [if_pos h]
  exact DT.throw rfl

/-- making the first position never returns -/
theorem LT.buildEvalNever {I : LInv d K Y} {n : Nat} (hn : 0 < n) {mk : St c X Y → Nat → D c (Vec d K × X)} {R : List (Agent d K X) → Prop}
    (h : ∀ s : St c X Y, LHolds I s → DT Er (mk s 0) (fun _ => False)) : LT Er I lo hi (Mealpy.buildEval n mk : M c X Y _) R := by
  unfold Mealpy.buildEval
  refine LT.ite (fun hm => ?_) fun _ => ?_
  · refine LT.bind0 LT.get fun s hs => LT.neverBind (LT.draw ?_)
    intro g
    refine Wp.mono (Wp.iter (fun i _ _ => i = 0) n rfl ?_) fun _ _ h => by omega
    rintro i a g' hi rfl
    exact Wp.bind (Wp.mono (h s hs g') fun _ _ h => h.elim)
  · refine LT.iterNever (l1 := 0) (h1 := 0) (lo := 0) (hi := 0) (k := 0) hn (fun i _ hi => absurd hi (Nat.not_lt_zero i)) fun _ => ?_
    exact LT.bind0 LT.get fun s hs => LT.neverBind (LT.draw (h s hs))

theorem DevHS.raises (hE : c.E.Lawful) (hP : c.P.Lawful) (hc : Accepted c 5) (p : DevHS.Params K) (hu : ∃ j, c.P.ub j < 0)
    (o : RunOpts K) (hst : FeasibleStart c o.starting) (b : Base c) (hb : b.log = []) :
    solve (DevHS.algo p : Algo c Unit (Vec d K)) o b = .error .value := by
  have hpop := hc.pop
  have hep := hc.epoch
  refine (Algo.std_lok (Er := fun x => x = Err.value) (I := (⟨fun _ => True, fun n => n = c.popSize, JT⟩ : LInv d K (Vec d K)))
    (lo := 1) (hi := 0) hE hP rfl (fun n hn => by have : n = c.popSize := hn; omega) (fun _ _ => trivial) rfl rfl (fun _ => DT.pure trivial)
    (DT.pure trivial) fun ep _ _ => ?_).raises hE (by omega) (by omega) o hst b hb
  show LT _ _ _ _ (DevHS.evolve p ep) _
  unfold DevHS.evolve
  refine LT.neverBind (lo := 0) (hi := 0) (LT.buildEvalNever (by omega) fun s _ => ?_)
  exact DT.bind DT.uniformVec' fun pos _ => DT.bind (R := fun _ => False) (DT.normalArr_never (Er := fun x => x = Err.value) hu rfl) fun _ h => h.elim

theorem LT.agentOf {I : LInv d K Y} {x : Vec d K} (hx : I.pos x) {mkExt : Vec d K → D c X} (h : DT Er (mkExt x) (fun _ => True)) :
    LT Er I 1 1 (liftB (Mealpy.agentOf mkExt x) : M c X Y _) (fun _ => True) := by
  intro s hs
  refine Wp.liftB (Wp.mono (agentOf_spec (F := fun _ => True) h) ?_)
  rintro a b' ⟨h1, h2, h3, h4, h5⟩
  exact ⟨.base hs ⟨[x], h4, by simp, by simp, by simpa using hx⟩, trivial⟩

/-- when `int(accepted_rate * pop_size)` is zero no belief space can be computed (`mealpy/human_based/CA.py:81-85,107-108`) -/
theorem OriginalCA.raises (hE : c.E.Lawful) (hP : c.P.Lawful) (hc : Accepted c 5) (p : OriginalCA.Params) (h : p.nAcc = 0)
    (o : RunOpts K) (hst : FeasibleStart c o.starting) (b : Base c) (hb : b.log = []) :
    solve (OriginalCA.algo p : Algo c Unit (Vec d K × Vec d K)) o b = .error .value := by
  have hpop := hc.pop
  have hep := hc.epoch
  refine (Algo.std_lok (Er := fun x => x = Err.value) (I := (⟨fun _ => True, fun n => n = c.popSize, JT⟩ : LInv d K (Vec d K × Vec d K)))
    (lo := 1) (hi := 0) hE hP rfl (fun n hn => by have : n = c.popSize := hn; omega) (fun _ _ => trivial) rfl rfl (fun _ => DT.pure trivial)
    (DT.pure trivial) fun ep _ _ => ?_).raises hE (by omega) (by omega) o hst b hb
  show LT _ _ _ _ (OriginalCA.evolve p ep) _
  unfold OriginalCA.evolve
  refine LT.bind0 LT.get fun s hs => ?_
  dsimp only
  have hl : s.pop.length = c.popSize := hs.len
  have hsp : LT (fun x => x = Err.value) (⟨fun _ => True, fun n => n = c.popSize, JT⟩ : LInv d K (Vec d K × Vec d K)) c.popSize c.popSize
      (spawn c.popSize (fun _ => pure ()) (fun _ => uniformVec s.ext.1 s.ext.2) : M c Unit (Vec d K × Vec d K) _) (fun l => l.length = c.popSize) := by
    unfold spawn
    refine LT.iterS 1 1 (fun i (l : List (Agent d K Unit)) => l.length = i) (by omega) (by omega) rfl fun i l hi hl => ?_
    refine LT.bind0 (LT.draw DT.uniformVec') fun x _ => LT.bindL (LT.agentOf trivial (DT.pure trivial)) fun a _ => LT.pure ?_
    simp [hl]
  refine LT.never (lo := c.popSize) (hi := c.popSize) (LT.bindL hsp fun child hch => ?_)
  refine LT.bind0 (LT.draw (R := fun l => l.length = c.popSize) ?_) fun new hn => LT.bind0 (LT.draw (DT.sortedPop hE)) fun sorted hs' => LT.bind0 (LT.setPop ?_) fun _ _ => ?_
  · unfold OriginalCA.duels
    refine DT.mono (DT.repM (Q := fun _ => True) fun i hi => ?_) fun _ h => h.1
    refine DT.bind (DT.choose2 hE (by rw [List.length_append]; omega)) fun ij hij => ?_
    exact DT.bind (DT.nth_mem (by omega)) fun a _ => DT.bind (DT.nth_mem (by omega)) fun b _ => DT.pure trivial
  · show sorted.length = c.popSize
    omega
  · rw [h, List.take_zero, if_pos rfl]
    exact LT.throw rfl

/-- two different coyotes other than a given one do not exist in a pack of two (`mealpy/swarm_based/COA.py:103`) -/
theorem OriginalCOA.raises (hE : c.E.Lawful) (hP : c.P.Lawful) (hc : Accepted c 5) (p : OriginalCOA.Params K) (h : p.coyotes = 2) (hk : 1 ≤ p.packs)
    (o : RunOpts K) (hst : FeasibleStart c o.starting) (b : Base c) (hb : b.log = []) :
    solve (OriginalCOA.algo p : Algo c Nat Unit) o b = .error .value := by
  have hpop := hc.pop
  have hep := hc.epoch
  refine (Algo.std_lok (Er := fun x => x = Err.value) (I := (⟨fun _ => True, fun n => n = c.popSize, JT⟩ : LInv d K Unit))
    (lo := 1) (hi := 0) hE hP rfl (fun n hn => by have : n = c.popSize := hn; omega) (fun _ _ => trivial) rfl rfl (fun _ => DT.pure trivial)
    (DT.pure trivial) fun ep _ _ => ?_).raises hE (by omega) (by omega) o hst b hb
  show LT _ _ _ _ (OriginalCOA.evolve p ep) _
  unfold OriginalCOA.evolve
  refine LT.bind0 LT.get fun s _ => ?_
  dsimp only
  refine LT.neverBind (lo := 0) (hi := 0) (LT.iterNever (l1 := 0) (h1 := 0) (lo := 0) (hi := 0) (k := 0) (by omega)
    (fun i _ hi => absurd hi (Nat.not_lt_zero i)) fun _ => ?_)
  have hg : (generateGroups s.pop p.packs p.coyotes).length = p.packs := by simp [generateGroups]
  refine LT.bind0 (LT.draw (DT.nth_mem (by omega))) fun g _ => LT.neverBind (lo := 0) (hi := 0) ?_
  unfold OriginalCOA.pack
  refine LT.bind0 (LT.draw (DT.sortedPop hE)) fun g1 _ => LT.neverBind (lo := 0) (hi := 0) (LT.buildEvalNever (by omega) fun s _ => ?_)
  refine DT.bind (R := fun _ => False) ?_ fun _ h => h.elim
  unfold choose2Without choiceWithout
  rw [h]
  exact fun g => rfl

end Mealpy
