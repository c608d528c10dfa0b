import Verif.Alg.Light
import Verif.Alg.Kit19
import Verif.Alg.Kit20

/-! # Algorithms whose agents may carry another position's target: `WHO.py`, `SBO.py`, `BCO.py`, `AAA.py` -/

set_option linter.unusedSectionVars false
set_option linter.unusedVariables false

namespace Mealpy
open Spec

variable {d : Nat} {K : Type} [Num K] {c : Cfg d K} {X Y : Type} {Er : Err → Prop}

theorem DT.nth_err {α : Type} {l : List α} {i : Nat} (h : Er .index) : DT Er (Mealpy.nth l i : D c α) (fun _ => True) := by
  unfold Mealpy.nth
  cases l[i]? with
  | some a => exact DT.pure trivial
  | none => exact DT.throw h

namespace OriginalWHO

/-- the hyper-parameters (`mealpy/bio_based/WHO.py:88-97`) -/
structure Params (K : Type) where
  explore : Nat
  exploit : Nat
  eta : K
  pHi : K
  localAlpha : K
  localBeta : K
  globalAlpha : K
  globalBeta : K
  deltaW : K
  deltaC : K

/-- the positions tried around an agent (`mealpy/bio_based/WHO.py:114-120`) -/
def around (p : Params K) (x : Vec d K) : D c (List (Vec d K × Unit)) :=
  repM p.explore (fun _ => do
    let u ← uniform 0 1
    let w ← uniformVec c.P.lb c.P.ub
    let y ← correct (fun j => x j + p.eta * u * w j)
    pure (y, ()))

/-- local movement: the best of these positions decides where to move (`mealpy/bio_based/WHO.py:112-125`) -/
def mill (p : Params K) (idx : Nat) : M c Unit Unit (Vec d K) := do
  let me ← popAt idx
  let pend ← draw (around p me.sol)
  let loc ← evalAll pend
  let best ← draw (bestAgent loc)
  draw (correct (fun j => p.localAlpha * best.sol j + p.localBeta * (me.sol j - best.sol j)))

/-- the first loop (`mealpy/bio_based/WHO.py:110-132`) -/
def milling (p : Params K) : M c Unit Unit Unit :=
  if c.swarmLike then do
    let pend ← iter c.popSize (fun idx acc => do
      let x ← mill p idx
      pure (acc ++ [(x, ())])) ([] : List (Vec d K × Unit))
    let new ← liftB (updateTargets pend)
    selectGreedy new
  else
    iter c.popSize (fun idx _ => do
      let x ← mill p idx
      let t ← liftB (getTarget x)
      let me ← popAt idx
      setAt idx (getBetterAgent ⟨x, t, ()⟩ me c.P.mm)) ()

/-- herd instinct (`mealpy/bio_based/WHO.py:133-141`) -/
def herd (p : Params K) : M c Unit Unit Unit :=
  iter c.popSize (fun idx _ => do
    let idr ← draw (index c.popSize)
    let other ← popAt idr
    let me ← popAt idx
    if compareTarget other.tgt me.tgt c.P.mm then do
      let u ← draw random
      if u < p.pHi then do
        let x ← draw (correct (fun j => p.globalAlpha * me.sol j + p.globalBeta * other.sol j))
        let t ← liftB (getTarget x)
        if compareTarget t me.tgt c.P.mm then setAt idx { me with sol := x, tgt := t } else pure ()
      else pure ()
    else pure ()) ()

/-- the moves of one agent: the position stored and the position handed to `get_target` in `single` mode
(`mealpy/bio_based/WHO.py:147-176`).  They depend on the agent as it was at the start of its turn. -/
def moves (p : Params K) (best worst x : Vec d K) : D c (List (Vec d K × Vec d K)) := do
  let toWorst := normV (fun j => x j - worst j)
  let toBest := normV (fun j => x j - best j)
  let flee ← (if toWorst < p.deltaW then do
      let u ← uniform 0 1
      let w ← uniformVec c.P.lb c.P.ub
      let y ← correct (fun j => x j + u * (c.P.ub j - c.P.lb j) * w j)
      pure [(y, y)]
    else pure [] : D c (List (Vec d K × Vec d K)))
  let crowd ← (if 1.0 < toBest ∧ toBest < p.deltaC then do
      let w ← uniformVec c.P.lb c.P.ub
      let y ← correct (fun j => best j + p.eta * w j)
      pure [(y, y)]
    else pure [] : D c (List (Vec d K × Vec d K)))
  let social ← repM p.exploit (fun _ => do
    let w ← uniformVec c.P.lb c.P.ub
    let temp : Vec d K := fun j => best j + 0.1 * w j
    let y ← correct temp
    pure (temp, y))
  pure (flee ++ crowd ++ social)

/-- one agent in `single` mode: the stored position is not the evaluated one (`mealpy/bio_based/WHO.py:172-176`) -/
def settle (idx : Nat) : List (Vec d K × Vec d K) → M c Unit Unit Unit
  | [] => pure ()
  | q :: qs => do
    let t ← liftB (getTarget q.2)
    let me ← popAt idx
    setAt idx (getBetterAgent ⟨q.1, t, ()⟩ me c.P.mm)
    settle idx qs

/-- the last loop (`mealpy/bio_based/WHO.py:143-180`) -/
def roam (p : Params K) : M c Unit Unit Unit := do
  let s ← get
  let best ← draw (bestAgent s.pop)
  let worst ← draw (worstAgent s.pop)
  if c.swarmLike then do
    let pend ← draw (gather c.popSize (fun idx => do
      let me ← nth s.pop idx
      let l ← moves p best.sol worst.sol me.sol
      pure (l.map (fun q => (q.1, ())))))
    let child ← liftB (updateTargets pend)
    selectGreedy (getSortedTrimmed c.E.argsort child c.popSize c.P.mm)
  else
    iter c.popSize (fun idx _ => do
      let me ← popAt idx
      let l ← draw (moves p best.sol worst.sol me.sol)
      settle idx l) ()

/-- `OriginalWHO.evolve` (`mealpy/bio_based/WHO.py:102-180`) -/
def evolve (p : Params K) (_ : Nat) : M c Unit Unit Unit := do
  milling p
  herd p
  roam p

/-- `OriginalWHO` (`mealpy/bio_based/WHO.py:12-180`) -/
def algo (p : Params K) : Algo c Unit Unit := Algo.plain false (evolve p)

/-- `single` mode: everything evaluated is feasible -/
abbrev LI (c : Cfg d K) : LInv d K Unit := ⟨Feas c, fun n => n = c.popSize, JT⟩

/-- pool modes: anything may be evaluated, agents carry their own targets -/
abbrev WI (c : Cfg d K) : Inv c Unit Unit := ⟨fun _ => True, fun n => n = c.popSize, fun _ => True, JT⟩

theorem dt_around (hE : c.E.Lawful) (hP : c.P.Lawful) {p : Params K} {x : Vec d K} :
    DT Er (around p x : D c _) (fun l => l.length = p.explore ∧ ∀ q ∈ l, Feas c q.1) := by
  unfold around
  refine DT.repM fun i _ => DT.bind (R := fun _ => True) (by dprim) fun u _ => DT.bind (R := fun _ => True) (by dprim) fun w _ =>
    DT.bind (DT.correct hP) fun y hy => DT.pure hy

theorem dt_moves (hE : c.E.Lawful) (hP : c.P.Lawful) {p : Params K} {best worst x : Vec d K} :
    DT Er (moves p best worst x : D c _) (fun l => (p.exploit ≤ l.length ∧ l.length ≤ p.exploit + 2) ∧ ∀ q ∈ l, Feas c q.2) := by
  unfold moves
  dsimp only
  refine DT.bind (R := fun l => l.length ≤ 1 ∧ ∀ q ∈ l, Feas c q.2) ?_ fun l1 h1 => DT.bind (R := fun l => l.length ≤ 1 ∧ ∀ q ∈ l, Feas c q.2) ?_ fun l2 h2 =>
    DT.bind (R := fun l => l.length = p.exploit ∧ ∀ q ∈ l, Feas c q.2) ?_ fun l3 h3 => DT.pure ⟨?_, ?_⟩
  · refine DT.ite (fun _ => ?_) fun _ => DT.pure ⟨by simp, by simp⟩
    refine DT.bind (R := fun _ => True) (by dprim) fun u _ => DT.bind (R := fun _ => True) (by dprim) fun w _ =>
      DT.bind (DT.correct hP) fun y hy => DT.pure ⟨by simp, ?_⟩
    intro q hq
    rw [List.mem_singleton.1 hq]; exact hy
  · refine DT.ite (fun _ => ?_) fun _ => DT.pure ⟨by simp, by simp⟩
    refine DT.bind (R := fun _ => True) (by dprim) fun w _ => DT.bind (DT.correct hP) fun y hy => DT.pure ⟨by simp, ?_⟩
    intro q hq
    rw [List.mem_singleton.1 hq]; exact hy
  · exact DT.repM fun i _ => DT.bind (R := fun _ => True) (by dprim) fun w _ => DT.bind (DT.correct hP) fun y hy => DT.pure hy
  · simp only [List.length_append]
    have := h1.1
    have := h2.1
    have := h3.1
    omega
  · intro q hq
    rcases List.mem_append.1 hq with hq | hq
    · rcases List.mem_append.1 hq with hq | hq
      · exact h1.2 q hq
      · exact h2.2 q hq
    · exact h3.2 q hq

theorem lt_mill (hE : c.E.Lawful) (hP : c.P.Lawful) {p : Params K} (he : 1 ≤ p.explore) {idx : Nat} (hi : idx < c.popSize) :
    LT Er (LI c) p.explore p.explore (mill p idx : M c Unit Unit _) (Feas c) := by
  unfold mill
  refine LT.bind0 (LT.popAt fun n hn => by have : n = c.popSize := hn; omega) fun me _ => LT.bind0 (LT.draw (dt_around hE hP)) fun pend hp => ?_
  have := LT.evalAll (Er := Er) (I := LI c) (X := Unit) hE hp.2
  rw [hp.1] at this
  refine LT.bindL this fun loc hl => LT.bind0 (LT.draw (DT.bestAgent hE (by omega))) fun best _ => LT.draw (DT.correct hP)

theorem wt_mill (hE : c.E.Lawful) (hP : c.P.Lawful) {p : Params K} (he : 1 ≤ p.explore) {idx : Nat} (hi : idx < c.popSize) :
    WT Er (WI c) p.explore p.explore (mill p idx : M c Unit Unit _) (fun _ => True) := by
  unfold mill
  refine WT.bind0 (WT.popAt fun n hn => by have : n = c.popSize := hn; omega) fun me _ => WT.bind0 (WT.draw (dt_around hE hP)) fun pend hp => ?_
  have := WT.evalAll (Er := Er) (I := WI c) hE (pend := pend) (fun q _ => ⟨trivial, trivial⟩)
  rw [hp.1] at this
  refine WT.bindS this (by omega) fun loc hl => ?_
  refine WT.weaken (lo := 0) (hi := 0) ?_ (by omega) (by omega)
  exact WT.bind0 (WT.draw (DT.bestAgent hE (by omega))) fun best _ => WT.draw (DT.mono (DT.correct hP) fun _ _ => trivial)

theorem lt_settle {idx : Nat} (hi : idx < c.popSize) : ∀ {l : List (Vec d K × Vec d K)}, (∀ q ∈ l, Feas c q.2) →
    LT Er (LI c) l.length l.length (settle idx l : M c Unit Unit Unit) (fun _ => True)
  | [], _ => LT.pure trivial
  | q :: qs, h => by
    unfold settle
    rw [List.length_cons, Nat.add_comm]
    refine LT.bind (LT.getTarget (h q (by simp))) fun t _ => ?_
    refine LT.bind0 (LT.popAt fun n hn => by have : n = c.popSize := hn; omega) fun me _ =>
      LT.bind0 (LT.setAt fun n hn => by have : n = c.popSize := hn; omega) fun _ _ => lt_settle hi fun q hq => h q (by simp [hq])

theorem lt_herd (hE : c.E.Lawful) (hP : c.P.Lawful) (h0 : 0 < c.popSize) {p : Params K} :
    LT Er (LI c) 0 c.popSize (herd p : M c Unit Unit Unit) (fun _ => True) := by
  unfold herd
  refine LT.iterU 0 1 (by omega) (by omega) fun idx hi => ?_
  refine LT.bind0 (LT.draw (DT.index hE h0)) fun idr hr => LT.bind0 (LT.popAt fun n hn => by have : n = c.popSize := hn; omega) fun other _ =>
    LT.bind0 (LT.popAt fun n hn => by have : n = c.popSize := hn; omega) fun me _ => ?_
  refine LT.ite (fun _ => ?_) fun _ => LT.weaken (LT.pure trivial) (by omega) (by omega)
  refine LT.bind0 (LT.draw (DT.random hE)) fun u _ => ?_
  refine LT.ite (fun _ => ?_) fun _ => LT.weaken (LT.pure trivial) (by omega) (by omega)
  refine LT.bind0 (LT.draw (DT.correct hP)) fun x hx => LT.bindS (LT.getTarget hx) (by omega) fun t _ => ?_
  exact LT.ite (fun _ => LT.setAt fun n hn => by have : n = c.popSize := hn; omega) fun _ => LT.pure trivial

theorem wt_herd (hE : c.E.Lawful) (hP : c.P.Lawful) (h0 : 0 < c.popSize) {p : Params K} :
    WT Er (WI c) 0 c.popSize (herd p : M c Unit Unit Unit) (fun _ => True) := by
  unfold herd
  refine WT.iterU 0 1 (by omega) (by omega) fun idx hi => ?_
  refine WT.bind0 (WT.draw (DT.index hE h0)) fun idr hr => WT.bind0 (WT.popAt fun n hn => by have : n = c.popSize := hn; omega) fun other _ =>
    WT.bind0 (WT.popAt fun n hn => by have : n = c.popSize := hn; omega) fun me _ => ?_
  refine WT.ite (fun _ => ?_) fun _ => WT.weaken (WT.pure trivial) (by omega) (by omega)
  refine WT.bind0 (WT.draw (DT.random hE)) fun u _ => ?_
  refine WT.ite (fun _ => ?_) fun _ => WT.weaken (WT.pure trivial) (by omega) (by omega)
  refine WT.bind0 (WT.draw (DT.correct hP)) fun x hx => WT.bindS (WT.getTarget trivial) (by omega) fun t ht => ?_
  exact WT.ite (fun _ => WT.setAt (fun n hn => by have : n = c.popSize := hn; omega) ⟨ht, trivial⟩) fun _ => WT.pure trivial

theorem lok (hE : c.E.Lawful) (hP : c.P.Lawful) (hc : Accepted c 5) (p : Params K) (he : 1 ≤ p.explore) (hm : c.swarmLike = false) :
    (algo p : Algo c Unit Unit).LOk (only []) (LI c) JT JT c.popSize c.popSize 0 0
      (c.popSize * (p.explore + 1) + c.popSize * p.exploit) (c.popSize * (p.explore + 1) + c.popSize + c.popSize * (p.exploit + 2)) := by
  have hpop := hc.pop
  refine Algo.plain_lok hE hP (by omega) (fun x h => h) fun ep _ _ => ?_
  unfold evolve
  refine LT.bindS (l1 := c.popSize * (p.explore + 1)) (h1 := c.popSize * (p.explore + 1)) (R := fun _ => True) ?_ (by omega) fun _ _ => ?_
  · unfold milling
    rw [if_neg (by rw [hm]; simp)]
    refine LT.iterU (p.explore + 1) (p.explore + 1) le_rfl le_rfl fun idx hi => ?_
    refine LT.bind (lt_mill hE hP he hi) fun x hx => LT.bindL (LT.getTarget hx) fun t _ => ?_
    exact LT.bind0 (LT.popAt fun n hn => by have : n = c.popSize := hn; omega) fun me _ => LT.setAt fun n hn => by have : n = c.popSize := hn; omega
  refine LT.bindS (lt_herd hE hP (by omega)) (by omega) fun _ _ => ?_
  unfold roam
  refine LT.bind0 LT.get fun s hs => ?_
  have hl : s.pop.length = c.popSize := hs.len
  refine LT.bind0 (LT.draw (DT.bestAgent hE (by omega))) fun best _ => LT.bind0 (LT.draw (DT.worstAgent hE (by omega))) fun worst _ => ?_
  rw [if_neg (by rw [hm]; simp)]
  refine LT.iterU p.exploit (p.exploit + 2) (by omega) (by omega) fun idx hi => ?_
  refine LT.bind0 (LT.popAt fun n hn => by have : n = c.popSize := hn; omega) fun me _ => LT.bind0 (LT.draw (dt_moves hE hP)) fun l hl => ?_
  exact LT.weaken (lt_settle hi hl.2) hl.1.1 hl.1.2

theorem wok (hE : c.E.Lawful) (hP : c.P.Lawful) (hc : Accepted c 5) (p : Params K) (he : 1 ≤ p.explore) (hx : 1 ≤ p.exploit) (hm : c.swarmLike = true) :
    (algo p : Algo c Unit Unit).WOk noErr (WI c) JT JT c.popSize c.popSize 0 0
      (c.popSize * (p.explore + 1) + c.popSize * p.exploit) (c.popSize * (p.explore + 1) + c.popSize + c.popSize * (p.exploit + 2)) := by
  have hpop := hc.pop
  have hep := hc.epoch
  have e1 := Nat.mul_add_one c.popSize p.explore
  refine Algo.std_wok (I := WI c) hE hP (by omega) rfl (fun n hn => by have : n = c.popSize := hn; omega) rfl rfl
    (fun x hx => ⟨trivial, DT.pure trivial⟩) (DT.pure trivial) fun ep _ _ => ?_
  show WT _ _ _ _ (evolve p ep) _
  unfold evolve
  refine WT.bindS (l1 := c.popSize * (p.explore + 1)) (h1 := c.popSize * (p.explore + 1)) (R := fun _ => True) ?_ (by omega) fun _ _ => ?_
  · unfold milling
    rw [if_pos hm]
    refine WT.bindS (R := fun l : List (Vec d K × Unit) => l.length = c.popSize)
      (WT.iter (lo := p.explore) (hi := p.explore) (fun i (l : List (Vec d K × Unit)) => l.length = i) c.popSize rfl fun i l hi hl => ?_) (by omega) fun pend hp => ?_
    · refine WT.bindS (wt_mill hE hP he hi) (by omega) fun x _ => ?_
      exact WT.weaken (WT.pure (by simp [hl])) (by omega) (by omega)
    · refine WT.bindS (WT.updateTargets hE hm (pend := pend) fun q _ => ⟨trivial, trivial⟩) (by omega) fun new hn => ?_
      refine WT.weaken (lo := 0) (hi := 0) (WT.selectGreedy (fun n hn' => ?_) hn.2) (by omega) (by omega)
      have : n = c.popSize := hn'
      omega
  refine WT.bindS (wt_herd hE hP (by omega)) (by omega) fun _ _ => ?_
  unfold roam
  refine WT.bind0 WT.get fun s hs => ?_
  have hl : s.pop.length = c.popSize := hs.len
  refine WT.bind0 (WT.draw (DT.bestAgent hE (by omega))) fun best _ => WT.bind0 (WT.draw (DT.worstAgent hE (by omega))) fun worst _ => ?_
  rw [if_pos hm]
  refine WT.bind0 (WT.draw (R := fun l : List (Vec d K × Unit) => (c.popSize * p.exploit ≤ l.length ∧ l.length ≤ c.popSize * (p.exploit + 2)) ∧ ∀ a ∈ l, True)
    (DT.gather (k1 := p.exploit) (k2 := p.exploit + 2) fun i hi => DT.bind (DT.nth_mem (by omega)) fun me _ =>
      DT.bind (dt_moves hE hP) fun l hl => DT.pure ⟨by simpa using hl.1, fun _ _ => trivial⟩)) fun pend hp => ?_
  refine WT.weaken (lo := pend.length) (hi := pend.length) ?_ (by omega) (by omega)
  refine WT.bindS (WT.updateTargets hE hm (pend := pend) fun q _ => ⟨trivial, trivial⟩) (by omega) fun child hn => ?_
  refine WT.weaken (lo := 0) (hi := 0) (WT.selectGreedy (fun n hn' => ?_) fun a ha => hn.2 a (trimmed_mem hE ha)) (by omega) (by omega)
  have h1 : n = c.popSize := hn'
  have h2 : c.popSize * 1 ≤ c.popSize * p.exploit := Nat.mul_le_mul_left _ hx
  rw [trimmed_length hE]
  omega

theorem framed_settle {q : Bool} {idx : Nat} : ∀ {l : List (Vec d K × Vec d K)}, Framed q (settle idx l : M c Unit Unit Unit)
  | [] => Framed.pure
  | _ :: _ => Framed.bind (.liftB .getTarget) fun _ => .bind .popAt fun _ => .bind .setAt fun _ => framed_settle

theorem framed_mill (hE : c.E.Lawful) {q : Bool} {p : Params K} {idx : Nat} : Framed q (mill p idx : M c Unit Unit _) :=
  .bind .popAt fun _ => .bind .draw fun _ => .bind (.evalAll hE) fun _ => .bind .draw fun _ => .draw

theorem framed (hE : c.E.Lawful) (p : Params K) (ep : Nat) : Framed true ((algo p : Algo c Unit Unit).evolve ep) := by
  refine Framed.bind ?_ fun _ => Framed.bind ?_ fun _ => ?_
  · unfold milling
    exact .ite (.bind (.iter fun _ _ => .bind (framed_mill hE) fun _ => .pure) fun _ => .bind (.liftB (.updateTargets hE)) fun _ => .selectGreedy)
      (.iter fun _ _ => .bind (framed_mill hE) fun _ => .bind (.liftB .getTarget) fun _ => .bind .popAt fun _ => .setAt)
  · unfold herd; framed
  · unfold roam
    exact .bind .get fun _ => .bind .draw fun _ => .bind .draw fun _ =>
      .ite (.bind .draw fun _ => .bind (.liftB (.updateTargets hE)) fun _ => .selectGreedy)
        (.iter fun _ _ => .bind .popAt fun _ => .bind .draw fun _ => framed_settle)

end OriginalWHO

namespace OriginalSBO

/-- the hyper-parameters (`mealpy/bio_based/SBO.py:75-77`) -/
structure Params (K : Type) where
  alpha : K
  pm : K
  psw : K

/-- the probability of each bower (`mealpy/bio_based/SBO.py:201-210`) -/
def probs (pop : List (Agent d K Unit)) : List K :=
  let fits := pop.map (fun a => if a.fit < 0 then 1.0 + Num.abs a.fit else 1.0 / (1.0 + Num.abs a.fit))
  fits.map (fun f => f / sumL fits)

/-- `roulette_wheel_selection__` (`mealpy/bio_based/SBO.py:176-189`); no entry need exceed the draw -/
def wheel (l : List K) : D c Nat := do
  let r ← uniform 0 1
  match firstAbove (cumsum l) r with
  | some i => pure i
  | none => dthrow .index

/-- the new position (`mealpy/bio_based/SBO.py:213-224`) -/
def move (p : Params K) (pr : List K) (pop : List (Agent d K Unit)) (g x : Vec d K) : D c (Vec d K × Unit) := do
  let y ← vecM (fun j => do
    let r ← wheel pr
    let pb ← nth pr r
    let other ← nth pop r
    let lamda : K := p.alpha / (1 + pb)
    let u ← uniform 0 1
    if u < p.pm then do
      let z ← normal 0 1
      pure (x j + z * (p.psw * (c.P.ub j - c.P.lb j)))
    else pure (x j + lamda * ((other.sol j + g j) / 2 - x j)))
  let y ← correct y
  pure (y, ())

/-- `OriginalSBO.evolve` (`mealpy/bio_based/SBO.py:191-230`): in `single` mode only the target is replaced (line 228) -/
def evolve (p : Params K) (_ : Nat) : M c Unit Unit Unit := do
  let s ← get
  let pr := probs s.pop
  if c.swarmLike then do
    let pend ← draw (repM c.popSize (fun i => do
      let me ← nth s.pop i
      move p pr s.pop s.gbest.sol me.sol))
    let new ← liftB (updateTargets pend)
    setPop new
  else
    iter c.popSize (fun i _ => do
      let me ← popAt i
      let q ← draw (move p pr s.pop s.gbest.sol me.sol)
      let t ← liftB (getTarget q.1)
      setAt i { me with tgt := t }) ()

/-- `OriginalSBO` (`mealpy/bio_based/SBO.py:115-230`) -/
def algo (p : Params K) : Algo c Unit Unit := Algo.plain false (evolve p)

theorem dt_move (hE : c.E.Lawful) (hP : c.P.Lawful) {p : Params K} {pop : List (Agent d K Unit)} {g x : Vec d K} (h : Er .index) :
    DT Er (move p (probs pop) pop g x : D c _) (fun q => Feas c q.1) := by
  unfold move
  refine DT.bind (R := fun _ => True) (DT.vecMT fun j => ?_) fun y _ => DT.bind (DT.correct hP) fun y hy => DT.pure hy
  refine DT.bind (R := fun _ => True) ?_ fun r _ => DT.bind (DT.nth_err h) fun pb _ => DT.bind (DT.nth_err h) fun other _ => ?_
  · unfold wheel
    refine DT.bind (R := fun _ => True) (by dprim) fun u _ => ?_
    cases firstAbove (cumsum (probs pop)) u with
    | some i => exact DT.pure trivial
    | none => exact DT.throw h
  · dsimp only
    refine DT.bind (R := fun _ => True) (by dprim) fun u _ => DT.ite (fun _ => DT.bind DT.normal fun z _ => DT.pure trivial) fun _ => DT.pure trivial

theorem lok (hE : c.E.Lawful) (hP : c.P.Lawful) (hc : Accepted c 5) (p : Params K) (hm : c.swarmLike = false) :
    (algo p : Algo c Unit Unit).LOk (only [.index]) (⟨Feas c, fun n => n = c.popSize, JT⟩ : LInv d K Unit) JT JT c.popSize c.popSize 0 0
      c.popSize c.popSize := by
  have hpop := hc.pop
  refine Algo.plain_lok hE hP (by omega) (fun x h => h) fun ep _ _ => ?_
  unfold evolve
  refine LT.bind0 LT.get fun s hs => ?_
  dsimp only
  rw [if_neg (by rw [hm]; simp)]
  refine LT.iterU 1 1 (by omega) (by omega) fun i hi => ?_
  refine LT.bind0 (LT.popAt fun n hn => by have : n = c.popSize := hn; omega) fun me _ =>
    LT.bind0 (LT.draw (dt_move hE hP (List.Mem.head _))) fun q hq => LT.bindL (LT.getTarget hq) fun t _ => ?_
  exact LT.setAt fun n hn => by have : n = c.popSize := hn; omega

theorem wok (hE : c.E.Lawful) (hP : c.P.Lawful) (hc : Accepted c 5) (p : Params K) (hm : c.swarmLike = true) :
    (algo p : Algo c Unit Unit).WOk (only [.index]) (Inv.std c Unit JT) JT JT c.popSize c.popSize 0 0 c.popSize c.popSize := by
  have hpop := hc.pop
  refine Algo.std_wok (I := Inv.std c Unit JT) hE hP (by omega) rfl (fun n hn => by have : n = c.popSize := hn; omega) rfl rfl
    (fun x hx => ⟨hx, DT.pure hx⟩) (DT.pure trivial) fun ep _ _ => ?_
  show WT _ _ _ _ (evolve p ep) _
  unfold evolve
  refine WT.bind0 WT.get fun s hs => ?_
  have hl : s.pop.length = c.popSize := hs.len
  dsimp only
  rw [if_pos hm]
  refine WT.bind0 (WT.draw (DT.repM fun i hi => DT.bind (DT.nth_mem (by omega)) fun me _ => dt_move hE hP (List.Mem.head _))) fun pend hp => ?_
  rw [← hp.1]
  refine WT.bindS (WT.updateTargets hE hm (pend := pend) fun q hq => ⟨hp.2 q hq, hp.2 q hq⟩) (by omega) fun new hn => ?_
  refine WT.weaken (lo := 0) (hi := 0) (WT.setPop ?_ hn.2) (by omega) (by omega)
  show new.length = c.popSize
  omega

theorem framed (hE : c.E.Lawful) (p : Params K) (ep : Nat) : Framed true ((algo p : Algo c Unit Unit).evolve ep) := by
  refine Framed.bind .get fun s => ?_
  exact .ite (.bind .draw fun _ => .bind (.liftB (.updateTargets hE)) fun _ => .setPop)
    (.iter fun _ _ => .bind .popAt fun _ => .bind .draw fun _ => .bind (.liftB .getTarget) fun _ => .setAt)

end OriginalSBO

namespace OriginalBCO

/-- the hyper-parameters (`mealpy/bio_based/BCO.py:69-73`) -/
structure Params (K : Type) where
  cMin : K
  cMax : K
  chemotaxis : Nat
  swim : Nat
  migration : K

/-- swimming: in further rounds the stored position is the corrected one, the target that of the uncorrected one
(`mealpy/bio_based/BCO.py:109-120`) -/
def swim (dir : Vec d K) (idx : Nat) : Nat → Agent d K Unit → M c Unit (List (Agent d K Unit)) Unit
  | 0, _ => pure ()
  | n + 1, a => do
    let me ← popAt idx
    if compareTarget a.tgt me.tgt c.P.mm then do
      setAt idx a
      let s ← get
      let loc ← draw (nth s.ext idx)
      let _ ← (if compareTarget a.tgt loc.tgt c.P.mm then modExt (fun l => l.set idx a) else pure () : M c Unit _ Unit)
      let pos : Vec d K := fun j => a.sol j + dir j
      let x ← draw (correct pos)
      let t ← liftB (getTarget pos)
      swim dir idx n ⟨x, t, ()⟩
    else pure ()

/-- chemotaxis (`mealpy/bio_based/BCO.py:92-106`) -/
def chemotaxis (p : Params K) (ep idx : Nat) : M c Unit (List (Agent d K Unit)) Unit := do
  let step : K := p.cMin + (p.cMax - p.cMin) * Num.pow (1 - ♯ep / ♯c.epoch) (♯p.chemotaxis)
  let f ← draw (index 2)
  let s ← get
  let me ← popAt idx
  let loc ← draw (nth s.ext idx)
  let dir : Vec d K := fun j => ♯f * (s.gbest.sol j - me.sol j) + (1 - ♯f) * (loc.sol j - me.sol j)
  let turb ← draw (vecM (fun _ : Fin d => uniform (-1) 1))
  let x ← draw (correct (fun j => me.sol j + step * (dir j + turb j)))
  let a ← liftB (agentOf (fun _ => pure ()) x)
  swim (fun j => step * dir j) idx p.swim a

/-- interactive exchange (`mealpy/bio_based/BCO.py:122-148`) -/
def exchange (idx : Nat) : M c Unit (List (Agent d K Unit)) Unit := do
  let kind ← draw (index 2)
  if kind = 0 then do
    let u ← draw random
    let nb ← draw (if u < 0.5 then
        if idx = 0 then pure 1
        else if idx = c.popSize - 1 then pure (c.popSize - 2)
        else do
          let v ← random
          pure (if v < 0.5 then idx + 1 else idx - 1)
      else sample1 c.popSize idx)
    let other ← popAt nb
    let me ← popAt idx
    if compareTarget other.tgt me.tgt c.P.mm then setAt idx other else pure ()
  else do
    let s ← get
    let me ← popAt idx
    if compareTarget s.gbest.tgt me.tgt c.P.mm then do
      let x ← draw (correct (fun j => me.sol j + 0.1 * (s.gbest.sol j - me.sol j)))
      let a ← liftB (agentOf (fun _ => pure ()) x)
      if compareTarget a.tgt me.tgt c.P.mm then setAt idx a else pure ()
    else pure ()

/-- reproduction (`mealpy/bio_based/BCO.py:150-158`); `pop_local` is not sorted along -/
def reproduce : M c Unit (List (Agent d K Unit)) Unit := do
  sortPop
  let half := c.popSize / 2
  iter (c.popSize - half) (fun i _ => do
    let a ← popAt i
    setAt (half + i) a
    let s ← get
    let l ← draw (nth s.ext i)
    modExt (fun y => y.set (half + i) l)) ()

/-- migration (`mealpy/bio_based/BCO.py:160-167`); the position is not corrected -/
def migrate (p : Params K) (idx : Nat) : M c Unit (List (Agent d K Unit)) Unit := do
  let u ← draw random
  if u < p.migration then do
    let x ← draw (uniformVec c.P.lb c.P.ub)
    let a ← liftB (agentOf (fun _ => pure ()) x)
    setAt idx a
    modExt (fun y => y.set idx a)
  else pure ()

/-- `OriginalBCO.evolve` (`mealpy/bio_based/BCO.py:85-167`) -/
def evolve (p : Params K) (ep : Nat) : M c Unit (List (Agent d K Unit)) Unit := do
  iter c.popSize (fun idx _ => chemotaxis p ep idx) ()
  iter c.popSize (fun idx _ => exchange idx) ()
  let _ ← (if ep % 10 = 0 then reproduce else pure () : M c Unit _ Unit)
  if ep % 50 = 0 then iter c.popSize (fun idx _ => migrate p idx) () else pure ()

/-- `OriginalBCO` (`mealpy/bio_based/BCO.py:12-167`); `pop_local` is set at the end of `initialization` (`:79-83`), here in `before_main_loop`:
nothing happens to the population in between.  The class is not parallelizable. -/
def algo (p : Params K) : Algo c Unit (List (Agent d K Unit)) :=
  Algo.pre false (fun _ => pure ()) (pure []) (fun s => pure s.pop) (evolve p)

/-- anything may be evaluated -/
abbrev LI (c : Cfg d K) : LInv d K (List (Agent d K Unit)) := ⟨fun _ => True, fun n => n = c.popSize, fun l => l.length = c.popSize⟩

theorem lt_agentOf {x : Vec d K} : LT Er (LI c) 1 1 (liftB (agentOf (fun _ => (pure () : D c Unit)) x) : M c Unit _ _) (fun _ => True) := by
  intro s hs
  refine Wp.liftB ?_
  unfold Mealpy.agentOf
  refine Wp.bind (Wp.liftD (DT.pure (Er := Er) (Q := fun _ => True) trivial) fun a r v _ => Wp.bind (Wp.getTarget (Wp.pure ⟨?_, trivial⟩)))
  exact LStep.base hs ⟨[x], rfl, by simp, by simp, by simp⟩

theorem lt_swim {dir : Vec d K} {idx : Nat} (hi : idx < c.popSize) (hP : c.P.Lawful) : ∀ {n : Nat} {a : Agent d K Unit},
    LT Er (LI c) 0 n (swim dir idx n a : M c Unit _ Unit) (fun _ => True)
  | 0, a => LT.pure trivial
  | n + 1, a => by
    unfold swim
    refine LT.bind0 (LT.popAt fun n hn => by have : n = c.popSize := hn; omega) fun me _ => ?_
    refine LT.ite (fun _ => ?_) fun _ => LT.weaken (LT.pure trivial) (by omega) (by omega)
    refine LT.bind0 (LT.setAt fun n hn => by have : n = c.popSize := hn; omega) fun _ _ => LT.bind0 LT.get fun s hs => ?_
    have hl : s.ext.length = c.popSize := hs.ext
    refine LT.bind0 (LT.draw (DT.nth_mem (by omega))) fun loc _ => ?_
    refine LT.bind0 (LT.ite (fun _ => LT.modExt fun y hy => (List.length_set).trans hy) fun _ => LT.pure trivial) fun _ _ => ?_
    dsimp only
    refine LT.bind0 (LT.draw (DT.correct hP)) fun x _ => LT.bindS (LT.getTarget trivial) (by omega) fun t _ => ?_
    exact LT.weaken (lt_swim hi hP) (by omega) (by omega)

theorem lok (hE : c.E.Lawful) (hP : c.P.Lawful) (hc : Accepted c 5) (p : Params K) :
    (algo p : Algo c Unit _).LOk (only []) (LI c) (fun _ => True) (fun _ => True) c.popSize c.popSize 0 0
      c.popSize (c.popSize * (1 + p.swim) + c.popSize + c.popSize) := by
  have hpop := hc.pop
  have e1 := Nat.mul_add c.popSize 1 p.swim
  refine Algo.pre_lok (I := LI c) hE hP rfl (fun n hn => by have : n = c.popSize := hn; omega) (fun x h => trivial)
    (fun _ => DT.pure trivial) (DT.pure trivial) (fun s hs => DT.pure hs.len) fun ep _ _ => ?_
  unfold evolve
  refine LT.bindS (l1 := c.popSize) (h1 := c.popSize * (1 + p.swim)) (LT.iterU 1 (1 + p.swim) (by omega) (by omega) fun idx hi => ?_) (by omega) fun _ _ => ?_
  · unfold chemotaxis
    dsimp only
    refine LT.bind0 (LT.draw (DT.index hE (by omega))) fun f _ => LT.bind0 LT.get fun s hs =>
      LT.bind0 (LT.popAt fun n hn => by have : n = c.popSize := hn; omega) fun me _ => ?_
    have hl : s.ext.length = c.popSize := hs.ext
    refine LT.bind0 (LT.draw (DT.nth_mem (by omega))) fun loc _ => LT.bind0 (LT.draw (DT.vecMT fun _ => by dprim)) fun turb _ =>
      LT.bind0 (LT.draw (DT.correct hP)) fun x _ => LT.bind lt_agentOf fun a _ => lt_swim hi hP
  refine LT.bindS (l1 := 0) (h1 := c.popSize) (LT.iterU 0 1 (by omega) (by omega) fun idx hi => ?_) (by omega) fun _ _ => ?_
  · unfold exchange
    refine LT.bind0 (LT.draw (DT.index hE (by omega))) fun kind _ => LT.ite (fun _ => ?_) fun _ => ?_
    · refine LT.bind0 (LT.draw (DT.random hE)) fun u _ => LT.bind0 (LT.draw (R := fun nb => nb < c.popSize) ?_) fun nb hnb => ?_
      · refine DT.ite (fun _ => DT.ite (fun _ => DT.pure (by omega)) fun h0 => DT.ite (fun _ => DT.pure (by omega)) fun h1 =>
          DT.bind (DT.random hE) fun v _ => DT.pure ?_) fun _ => DT.mono (DT.sample1 hE (by omega) hi) fun i h => h.1
        split <;> omega
      · refine LT.bind0 (LT.popAt fun n hn => by have : n = c.popSize := hn; omega) fun other _ =>
          LT.bind0 (LT.popAt fun n hn => by have : n = c.popSize := hn; omega) fun me _ => ?_
        exact LT.ite (fun _ => LT.weaken (LT.setAt fun n hn => by have : n = c.popSize := hn; omega) (by omega) (by omega))
          fun _ => LT.weaken (LT.pure trivial) (by omega) (by omega)
    · refine LT.bind0 LT.get fun s hs => LT.bind0 (LT.popAt fun n hn => by have : n = c.popSize := hn; omega) fun me _ => ?_
      refine LT.ite (fun _ => ?_) fun _ => LT.weaken (LT.pure trivial) (by omega) (by omega)
      refine LT.bind0 (LT.draw (DT.correct hP)) fun x _ => LT.bindS lt_agentOf (by omega) fun a _ => ?_
      exact LT.ite (fun _ => LT.setAt fun n hn => by have : n = c.popSize := hn; omega) fun _ => LT.pure trivial
  refine LT.bind0 (R := fun _ => True) (LT.ite (fun _ => ?_) fun _ => LT.pure trivial) fun _ _ => ?_
  · unfold reproduce
    dsimp only
    refine LT.bind0 (R := fun _ => True) ?_ fun _ _ => ?_
    · intro s hs
      refine Wp.modify ⟨.pop hs ?_, trivial⟩
      rw [getSorted_length hE.argsortLaw]
      exact hs.len
    · refine LT.iterU 0 0 (by omega) (by omega) fun i hi => ?_
      refine LT.bind0 (LT.popAt fun n hn => by have : n = c.popSize := hn; omega) fun a _ =>
        LT.bind0 (LT.setAt fun n hn => by have : n = c.popSize := hn; omega) fun _ _ => LT.bind0 LT.get fun s hs => ?_
      have hl : s.ext.length = c.popSize := hs.ext
      refine LT.bind0 (LT.draw (DT.nth_mem (by omega))) fun l _ => LT.modExt fun y hy => (List.length_set).trans hy
  · refine LT.ite (fun _ => LT.iterU 0 1 (by omega) (by omega) fun idx hi => ?_) fun _ => LT.weaken (LT.pure trivial) (by omega) (by omega)
    unfold migrate
    refine LT.bind0 (LT.draw (DT.random hE)) fun u _ => LT.ite (fun _ => ?_) fun _ => LT.weaken (LT.pure trivial) (by omega) (by omega)
    refine LT.bind0 (LT.draw (R := fun _ => True) (by dprim)) fun x _ => LT.bindS lt_agentOf (by omega) fun a _ => ?_
    refine LT.weaken (lo := 0) (hi := 0) ?_ (by omega) (by omega)
    exact LT.bind0 (LT.setAt fun n hn => by have : n = c.popSize := hn; omega) fun _ _ => LT.modExt fun y hy => (List.length_set).trans hy

theorem framed_swim {q : Bool} {dir : Vec d K} {idx : Nat} : ∀ {n : Nat} {a : Agent d K Unit}, Framed q (swim dir idx n a : M c Unit _ Unit)
  | 0, _ => .pure
  | n + 1, _ => by
    unfold swim
    exact .bind .popAt fun _ => .ite (.bind .setAt fun _ => .bind .get fun _ => .bind .draw fun _ => .bind (.ite .modExt .pure) fun _ =>
      .bind .draw fun _ => .bind (.liftB .getTarget) fun _ => framed_swim) .pure

theorem framed_chemotaxis {q : Bool} {p : Params K} {ep idx : Nat} : Framed q (chemotaxis p ep idx : M c Unit _ Unit) :=
  .bind .draw fun _ => .bind .get fun _ => .bind .popAt fun _ => .bind .draw fun _ => .bind .draw fun _ => .bind .draw fun _ =>
    .bind (.liftB .agentOf) fun _ => framed_swim

theorem framed (hE : c.E.Lawful) (p : Params K) (ep : Nat) : Framed true ((algo p : Algo c Unit _).evolve ep) := by
  refine Framed.bind (.iter fun _ _ => framed_chemotaxis) fun _ => .bind (.iter fun _ _ => ?_) fun _ => .bind (.ite ?_ .pure) fun _ => .ite (.iter fun _ _ => ?_) .pure
  · unfold exchange; framed
  · unfold reproduce; framed
  · unfold migrate; framed

end OriginalBCO

namespace OriginalAAA

/-- the hyper-parameters (`mealpy/bio_based/AAA.py:69-71`), and how many steps one colony's `while` loop may last -/
structure Params (K : Type) where
  force : K
  loss : K
  ap : K
  fuel : Nat

/-- `self.starvation`, `self.alg_size_matrix` (`mealpy/bio_based/AAA.py:76-79`) -/
structure Vars (K : Type) where
  starv : List Nat
  size : List K

/-- `(x - min) / (max - min)` of each entry, or of each entry from the maximum (`mealpy/bio_based/AAA.py:86-93`) -/
def normalise (mm : MinMax) (l : List K) : List K :=
  let range := maxL l - minL l
  if range = 0 then l.map (fun _ => 0)
  else match mm with
    | .min => l.map (fun x => (x - minL l) / range)
    | .max => l.map (fun x => (maxL l - x) / range)

/-- `calculate_greatness` (`mealpy/bio_based/AAA.py:81-101`) -/
def greatness (mm : MinMax) (g fit : List K) : List K :=
  List.zipWith (fun g f => g + (1 - f) / (Num.abs (g / 2) + (1 - f)) * g) g (normalise mm fit)

/-- `calculate_energy` (`mealpy/bio_based/AAA.py:103-124`) -/
def energies (argsort : List K → List Nat) (mm : MinMax) (g : List K) : List K :=
  normalise mm ((List.range g.length).map (fun i => Num.pow (♯((argsort g).idxOf i)) 2))

/-- `calculate_friction` (`mealpy/bio_based/AAA.py:126-143`) -/
def frictions (mm : MinMax) (g : List K) : List K :=
  let s : List K := g.map (fun a => 2 * Num.pi * Num.pow (Num.pow ((a * 3) / (4 * Num.pi)) (1 / 3)) 2)
  if maxL s = minL s then s.map (fun _ => 0)
  else match mm with
    | .min => s.map (fun x => (x - minL s) / (maxL s - minL s))
    | .max => s.map (fun x => (maxL s - x) / (maxL s - minL s))

/-- the three coordinates moved toward the chosen colony (`mealpy/bio_based/AAA.py:158-162`) -/
def helix (p : Params K) (fr : K) (pop : List (Agent d K Unit)) (pos : Vec d K) : D c (Vec d K) := do
  let l ← kwayIdx pop (.frac 0.2) 1 false
  let k ← nth l 0
  let nb ← nth pop k
  let (r1, r2, r3) ← choose3 d
  let a ← random
  let b ← random
  let e ← random
  let step (j : Fin d) (w : K) : K := pos j + (nb.sol j - pos j) * (p.force - fr) * w
  pure (fun j =>
    if j.val = r1 then step j ((a - 0.5) * 2)
    else if j.val = r2 then step j (Num.cos (b * 2 * Num.pi))
    else if j.val = r3 then step j (Num.sin (e * 2 * Num.pi))
    else pos j)

/-- One colony's `while` loop (`mealpy/bio_based/AAA.py:157-173`).  `held`: the array `pos_new` is the one stored in `self.pop[idx]`, which the
three assignments then overwrite before the result is corrected. -/
def dive (p : Params K) (fr : K) (idx : Nat) : Nat → K → Bool → Vec d K → M c Unit (Vars K) Unit
  | 0, e, _, _ => if 0 ≤ e then mthrow .hang else pure ()
  | n + 1, e, held, pos =>
    if 0 ≤ e then do
      let s ← get
      let y ← draw (helix p fr s.pop pos)
      let _ ← (if held then do
          let me ← popAt idx
          setAt idx { me with sol := y }
        else pure () : M c Unit (Vars K) Unit)
      let x ← draw (correct y)
      let a ← liftB (agentOf (fun _ => pure ()) x)
      let me ← popAt idx
      if compareTarget a.tgt me.tgt c.P.mm then do
        setAt idx a
        modExt (fun v => { v with starv := v.starv.set idx 0 })
        dive p fr idx n (e - p.loss / 2) true x
      else do
        modExt (fun v => { v with starv := v.starv.set idx (v.starv.getD idx 0 + 1) })
        dive p fr idx n (e - p.loss / 2 - p.loss / 2) false x
    else pure ()

/-- `np.argmax` of a list of integers -/
def argmaxN (l : List Nat) : Nat := l.findIdx (fun x => l.all (fun y => decide (y ≤ x)))

/-- `OriginalAAA.evolve` (`mealpy/bio_based/AAA.py:145-190`) -/
def evolve (p : Params K) (_ : Nat) : M c Unit (Vars K) Unit := do
  let s ← get
  let en := energies c.E.argsort c.P.mm s.ext.size
  let fr := frictions c.P.mm s.ext.size
  iter c.popSize (fun idx _ => do
    let me ← popAt idx
    let e ← draw (nth en idx)
    let f ← draw (nth fr idx)
    dive p f idx p.fuel e false me.sol) ()
  let s ← get
  let size := greatness c.P.mm s.ext.size (s.pop.map Agent.fit)
  modExt (fun v => { v with size := size })
  let big ← popAt (argmaxL size)
  setAt (argminL size) big
  let u ← draw random
  if u < p.ap then do
    let s ← get
    let k := argmaxN s.ext.starv
    let me ← popAt k
    let r ← draw randomVec
    let x ← draw (correct (fun j => me.sol j + (s.gbest.sol j - me.sol j) * r j))
    let a ← liftB (agentOf (fun _ => pure ()) x)
    setAt k a
    modExt (fun v => { v with starv := v.starv.set k 0 })
  else pure ()

/-- `OriginalAAA` (`mealpy/bio_based/AAA.py:12-190`).  The class is not parallelizable. -/
def algo (p : Params K) : Algo c Unit (Vars K) :=
  Algo.pre false (fun _ => pure ()) (pure ⟨[], []⟩)
    (fun s => pure ⟨List.replicate c.popSize 0, greatness c.P.mm (List.replicate c.popSize 1) (s.pop.map Agent.fit)⟩) (evolve p)

abbrev LI (c : Cfg d K) : LInv d K (Vars K) := ⟨Feas c, fun n => n = c.popSize, fun v => v.starv.length = c.popSize ∧ v.size.length = c.popSize⟩

theorem normalise_length {mm : MinMax} {l : List K} : (normalise mm l).length = l.length := by
  unfold normalise
  dsimp only
  split
  · simp
  · cases mm <;> simp

theorem frictions_length {mm : MinMax} {l : List K} : (frictions mm l).length = l.length := by
  unfold frictions
  dsimp only
  split
  · simp
  · cases mm <;> simp

theorem greatness_length {mm : MinMax} {g f : List K} : (greatness mm g f).length = min g.length f.length := by
  unfold greatness
  rw [List.length_zipWith, normalise_length]

theorem energies_length {argsort : List K → List Nat} {mm : MinMax} {g : List K} : (energies argsort mm g).length = g.length := by
  unfold energies
  rw [normalise_length]; simp

theorem argmaxN_lt {l : List Nat} (h : 0 < l.length) : argmaxN l < l.length := by
  unfold argmaxN
  rw [List.findIdx_lt_length]
  have : ∀ l : List Nat, 0 < l.length → ∃ x ∈ l, ∀ y ∈ l, y ≤ x := by
    intro l
    induction l with
    | nil => intro h; simp at h
    | cons a l ih =>
      intro _
      rcases Nat.eq_zero_or_pos l.length with h0 | h0
      · have := List.eq_nil_of_length_eq_zero h0
        subst this
        exact ⟨a, by simp, by simp⟩
      · obtain ⟨x, hx, hy⟩ := ih h0
        rcases Nat.le_total a x with h1 | h1
        · refine ⟨x, by simp [hx], fun y h => ?_⟩
          rcases List.mem_cons.1 h with rfl | h
          · exact h1
          · exact hy y h
        · refine ⟨a, by simp, fun y h => ?_⟩
          rcases List.mem_cons.1 h with rfl | h
          · exact Nat.le_refl _
          · exact Nat.le_trans (hy y h) h1
  obtain ⟨x, hx, hy⟩ := this l h
  exact ⟨x, hx, by simpa using hy⟩

theorem kway_size {n : Nat} (h : 5 ≤ n) : 1 ≤ (KWay.frac 0.2).size n ∧ (KWay.frac 0.2).size n ≤ n := by
  have hn : (5 : ℚ) ≤ n := by exact_mod_cast h
  have e : (KWay.frac 0.2).size n = ⌊(0.2 : ℚ) * n⌋ := by
    unfold KWay.size
    norm_num
    rfl
  rw [e]
  constructor
  · rw [Int.le_floor]; push_cast; norm_num; linarith
  · have := Int.floor_le ((0.2 : ℚ) * n)
    have h2 : ((⌊(0.2 : ℚ) * n⌋ : Int) : ℚ) ≤ ((n : Int) : ℚ) := by push_cast; norm_num at this ⊢; linarith
    exact_mod_cast h2

theorem dt_helix (hE : c.E.Lawful) {p : Params K} {fr : K} {pop : List (Agent d K Unit)} {pos : Vec d K} (hl : 5 ≤ pop.length) (hd : 3 ≤ d) :
    DT Er (helix p fr pop pos : D c _) (fun _ => True) := by
  have hk := kway_size hl
  unfold helix
  refine DT.bind (DT.kwayIdx hE (by omega) (by omega) (by omega)) fun l hl => DT.bind (DT.nth_mem (by omega)) fun k hk => ?_
  refine DT.bind (DT.nth_mem (hl.2 k hk)) fun nb _ => DT.bind (DT.choose3 hE hd) fun r _ => ?_
  exact DT.bind (DT.random hE) fun _ _ => DT.bind (DT.random hE) fun _ _ => DT.bind (DT.random hE) fun _ _ => DT.pure trivial

theorem lt_agentOf {x : Vec d K} (hx : Feas c x) :
    LT Er (LI c) 1 1 (liftB (agentOf (fun _ => (pure () : D c Unit)) x) : M c Unit _ _) (fun _ => True) := by
  intro s hs
  refine Wp.liftB ?_
  unfold Mealpy.agentOf
  refine Wp.bind (Wp.liftD (DT.pure (Er := Er) (Q := fun _ => True) trivial) fun a r v _ => Wp.bind (Wp.getTarget (Wp.pure ⟨?_, trivial⟩)))
  exact LStep.base hs ⟨[x], rfl, by simp, by simp, fun y hy => by rw [List.mem_singleton.1 hy]; exact hx⟩

theorem lt_dive (hE : c.E.Lawful) (hP : c.P.Lawful) {p : Params K} {fr : K} {idx : Nat} (hi : idx < c.popSize) (h5 : 5 ≤ c.popSize) (hd : 3 ≤ d)
    (hh : Er .hang) : ∀ {n : Nat} {e : K} {held : Bool} {pos : Vec d K}, LT Er (LI c) 0 n (dive p fr idx n e held pos : M c Unit _ Unit) (fun _ => True)
  | 0, e, held, pos => LT.ite (fun _ => LT.throw hh) fun _ => LT.pure trivial
  | n + 1, e, held, pos => by
    unfold dive
    refine LT.ite (fun _ => ?_) fun _ => LT.weaken (LT.pure trivial) (by omega) (by omega)
    refine LT.bind0 LT.get fun s hs => ?_
    have hl : s.pop.length = c.popSize := hs.len
    refine LT.bind0 (LT.draw (dt_helix hE (by omega) hd)) fun y _ => LT.bind0 (R := fun _ => True) (LT.ite (fun _ => ?_) fun _ => LT.pure trivial) fun _ _ => ?_
    · exact LT.bind0 (LT.popAt fun n hn => by have : n = c.popSize := hn; omega) fun me _ => LT.setAt fun n hn => by have : n = c.popSize := hn; omega
    refine LT.bind0 (LT.draw (DT.correct hP)) fun x hx => LT.bindS (lt_agentOf hx) (by omega) fun a _ => ?_
    refine LT.bind0 (LT.popAt fun n hn => by have : n = c.popSize := hn; omega) fun me _ => LT.ite (fun _ => ?_) fun _ => ?_
    · refine LT.bind0 (LT.setAt fun n hn => by have : n = c.popSize := hn; omega) fun _ _ =>
        LT.bind0 (LT.modExt fun v hv => ⟨(List.length_set).trans hv.1, hv.2⟩) fun _ _ => ?_
      exact LT.weaken (lt_dive hE hP hi h5 hd hh) (by omega) (by omega)
    · refine LT.bind0 (LT.modExt fun v hv => ⟨(List.length_set).trans hv.1, hv.2⟩) fun _ _ => ?_
      exact LT.weaken (lt_dive hE hP hi h5 hd hh) (by omega) (by omega)

theorem lok (hE : c.E.Lawful) (hP : c.P.Lawful) (hc : Accepted c 5) (hd : 3 ≤ d) (p : Params K) :
    (algo p : Algo c Unit _).LOk (only [.hang]) (LI c) (fun _ => True) (fun _ => True) c.popSize c.popSize 0 0 0 (c.popSize * p.fuel + 1) := by
  have hpop := hc.pop
  refine Algo.pre_lok (I := LI c) hE hP rfl (fun n hn => by have : n = c.popSize := hn; omega) (fun x h => h)
    (fun _ => DT.pure trivial) (DT.pure trivial) (fun s hs => DT.pure ⟨List.length_replicate, ?_⟩) fun ep _ _ => ?_
  · have hl : s.pop.length = c.popSize := hs.len
    show (greatness c.P.mm (List.replicate c.popSize 1) (s.pop.map Agent.fit)).length = c.popSize
    rw [greatness_length, List.length_replicate, List.length_map, hl, Nat.min_self]
  unfold evolve
  refine LT.bind0 LT.get fun s hs => ?_
  have hz : s.ext.size.length = c.popSize := hs.ext.2
  dsimp only
  refine LT.bindS (l1 := 0) (h1 := c.popSize * p.fuel) (LT.iterU 0 p.fuel (by omega) (by omega) fun idx hi => ?_) (by omega) fun _ _ => ?_
  · exact LT.bind0 (LT.popAt fun n hn => by have : n = c.popSize := hn; omega) fun me _ =>
      LT.bind0 (LT.draw (DT.nth_mem (by rw [energies_length]; omega))) fun e _ =>
      LT.bind0 (LT.draw (DT.nth_mem (by rw [frictions_length]; omega))) fun f _ => lt_dive hE hP hi hpop.1 hd (List.Mem.head _)
  refine LT.bind0 LT.get fun s2 hs2 => ?_
  have hs' : (greatness c.P.mm s2.ext.size (s2.pop.map Agent.fit)).length = c.popSize := by
    have hl : s2.pop.length = c.popSize := hs2.len
    rw [greatness_length, List.length_map, hl, hs2.ext.2, Nat.min_self]
  have h1 := argmaxL_lt (l := greatness c.P.mm s2.ext.size (s2.pop.map Agent.fit)) (by omega)
  have h2 := argminL_lt (l := greatness c.P.mm s2.ext.size (s2.pop.map Agent.fit)) (by omega)
  refine LT.bind0 (LT.modExt fun v hv => ⟨hv.1, hs'⟩) fun _ _ =>
    LT.bind0 (LT.popAt fun n hn => by have : n = c.popSize := hn; omega) fun big _ =>
    LT.bind0 (LT.setAt fun n hn => by have : n = c.popSize := hn; omega) fun _ _ => LT.bind0 (LT.draw (DT.random hE)) fun u _ => ?_
  refine LT.ite (fun _ => ?_) fun _ => LT.weaken (LT.pure trivial) (by omega) (by omega)
  refine LT.bind0 LT.get fun s3 hs3 => ?_
  have hz3 : s3.ext.starv.length = c.popSize := hs3.ext.1
  have h3 := argmaxN_lt (l := s3.ext.starv) (by omega)
  refine LT.bind0 (LT.popAt fun n hn => by have : n = c.popSize := hn; omega) fun me _ => LT.bind0 (LT.draw (R := fun _ => True) (by dprim)) fun r _ =>
    LT.bind0 (LT.draw (DT.correct hP)) fun x hx => LT.bindS (lt_agentOf hx) (by omega) fun a _ => ?_
  refine LT.weaken (lo := 0) (hi := 0) ?_ (by omega) (by omega)
  exact LT.bind0 (LT.setAt fun n hn => by have : n = c.popSize := hn; omega) fun _ _ => LT.modExt fun v hv => ⟨(List.length_set).trans hv.1, hv.2⟩

theorem framed_dive {q : Bool} {p : Params K} {fr : K} {idx : Nat} : ∀ {n : Nat} {e : K} {held : Bool} {pos : Vec d K},
    Framed q (dive p fr idx n e held pos : M c Unit _ Unit)
  | 0, _, _, _ => .ite .mthrow .pure
  | n + 1, _, _, _ => by
    unfold dive
    exact .ite (.bind .get fun _ => .bind .draw fun _ => .bind (.ite (.bind .popAt fun _ => .setAt) .pure) fun _ => .bind .draw fun _ =>
      .bind (.liftB .agentOf) fun _ => .bind .popAt fun _ => .ite (.bind .setAt fun _ => .bind .modExt fun _ => framed_dive)
        (.bind .modExt fun _ => framed_dive)) .pure

theorem framed (hE : c.E.Lawful) (p : Params K) (ep : Nat) : Framed true ((algo p : Algo c Unit _).evolve ep) := by
  refine Framed.bind .get fun _ => .bind (.iter fun _ _ => .bind .popAt fun _ => .bind .draw fun _ => .bind .draw fun _ => framed_dive) fun _ =>
    .bind .get fun _ => .bind .modExt fun _ => .bind .popAt fun _ => .bind .setAt fun _ => .bind .draw fun _ => .ite ?_ .pure
  exact .bind .get fun _ => .bind .popAt fun _ => .bind .draw fun _ => .bind .draw fun _ => .bind (.liftB .agentOf) fun _ => .bind .setAt fun _ => .modExt

end OriginalAAA

end Mealpy
