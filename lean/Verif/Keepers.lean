import Verif.Keep
import Verif.Alg.Simple2
import Verif.Alg.Simple6
import Verif.Alg.Simple8
import Verif.Alg.Simple10
import Verif.Alg.Simple12
import Verif.Alg.Simple13
import Verif.Alg.Simple14
import Verif.Alg.Simple15
import Verif.Alg.Simple16
import Verif.Alg.Simple17
import Verif.Alg.Simple20
import Verif.Alg.Simple21
import Verif.Alg.ORCA
import Verif.Alg.SARO

/-!
# The algorithms that keep what they evaluate

One theorem for each: an epoch of this algorithm never loses the best point it evaluates (`Keep.lean`).
-/

set_option linter.unusedSectionVars false
set_option linter.unusedVariables false

namespace Mealpy
open Spec

variable {d : Nat} {K : Type} [Num K] {c : Cfg d K} {X Y α β : Type} {r : Agent d K X} {q : List (Agent d K X)} {y : Y}

/-! ## shapes -/

/-- the population is replaced by what was evaluated for it -/
theorem Kp.replace {G new : List (Agent d K X)} (hd : Dom c.P.mm r G new) : Kp r q y G (Mealpy.setPop new : M c X Y Unit) (InPop []) Any3 :=
  .setPop ⟨hd.left, trivial⟩

theorem Dom.sorted (hE : c.E.Lawful) {l : List (Agent d K X)} : Dom c.P.mm r l (getSorted c.E.argsort l c.P.mm).1 :=
  .perm (getSorted_perm hE.argsortLaw l c.P.mm).symm

/-- the best of some new agents and the old one moves in -/
theorem Kp.setTop (hE : c.E.Lawful) {i : Nat} {new : List (Agent d K X)} {L : List (Agent d K X)} :
    Kp r q y (q ++ L ++ new) (popAt i >>= fun old => draw (bestAgent (new ++ [old])) >>= fun b => Mealpy.setAt i b : M c X Y Unit) (InPop L) Any3 :=
  .bindPop fun old ho => .bind0 (.drawR (DT.bestAgent' hE (by simp))) fun b hb => .setAt fun hi => ⟨by
    refine .append (.append (Dom.left (.set ho (hb.2 _ (by simp)))) Dom.rfl.right) ?_
    exact .all (List.mem_cons_of_mem _ (List.mem_append_left _ (List.mem_of_getElem? (List.getElem?_set_self hi)))) fun a ha => hb.2 a (List.mem_append_left _ ha),
    trivial⟩

/-! ## greedy loops with the best agent updated in between -/

theorem OriginalMRFO.keeper (hE : c.E.Lawful) (hP : c.P.Lawful) {p : K} : Keeper false Free (OriginalMRFO.algo p : Algo c Unit Unit) :=
  .plain hE hP fun ep r q y => .bind (.greedyLoopR hE (L := []) .nil) fun _ q y _ => .bindGet fun s _ _ _ => .bindNoSave fun b => .greedyLoopR hE .rfl

theorem WMQIMRFO.keeper (hE : c.E.Lawful) (hP : c.P.Lawful) {p : WMQIMRFO.Params K} : Keeper false Free (WMQIMRFO.algo p : Algo c Unit Unit) :=
  .plain hE hP fun ep r q y => .bind (.greedyLoopR hE (L := []) .nil) fun _ q y _ => .bindGet fun s _ _ _ => .bindNoSave fun b =>
    .bind (.greedyLoopR hE (L := []) .rfl) fun _ q y _ => .bindGet fun s hs _ _ => .bindNoSave fun b => .bindSetPop <| by
      rw [hs]; exact .greedyLoopR hE (.append (Dom.sorted hE).left .nil)

theorem OriginalGTO.keeper (hE : c.E.Lawful) (hP : c.P.Lawful) {p : OriginalGTO.Params K} : Keeper false Free (OriginalGTO.algo p : Algo c Unit Unit) :=
  .plain hE hP fun ep r q y => .bindGet fun s _ _ _ => .bind (.greedyLoop hE (L := []) .nil) fun _ q y _ => .bindGet fun s hs _ _ => .bindNoSave fun b =>
    .bindSetPop <| by
      rw [hs]
      exact .bind (.greedyLoop hE (L := []) (.append (Dom.sorted hE).left .nil)) fun _ q y _ => .bindGet fun s _ _ _ => .bindNoSave fun b => .bindDraw fun u =>
        .greedyLoop hE .rfl

theorem Matlab102GTO.keeper (hE : c.E.Lawful) (hP : c.P.Lawful) : Keeper false Free (Matlab102GTO.algo : Algo c Unit Unit) :=
  .plain hE hP fun ep r q y => .bindGet fun s _ _ _ => .bind (.greedyLoop hE (L := []) .nil) fun _ q y _ => .bindGet fun s hs _ _ => .bindNoSave fun b =>
    .bindSetPop <| by
      rw [hs]
      exact .bind (.greedyLoop hE (L := []) (.append (Dom.sorted hE).left .nil)) fun _ q y _ => .bindGet fun s hs _ _ => .bindNoSave fun b => .bindSetPop <| by
        rw [hs]; exact .bindDraw fun u => .greedyLoop hE (.append (Dom.sorted hE).left .nil)

theorem Matlab101GTO.kp_swarm (hE : c.E.Lawful) {mk : Nat → St c Unit Unit → Nat → D c (Vec d K × Unit)} {r : Agent d K Unit} {q : List (Agent d K Unit)} {y : Unit}
    {G : List (Agent d K Unit)} (hd : Dom c.P.mm r G (q ++ [])) : Kp r q y G (Matlab101GTO.swarm mk : M c Unit Unit Unit) (InPop []) Any3 :=
  .iter (fun _ => InPop []) (fun _ => Any3) hd trivial fun i _ q y _ _ => .bindQ (Qt.buildEval hE) fun new _ => .setTop hE

theorem Matlab101GTO.keeper (hE : c.E.Lawful) (hP : c.P.Lawful) : Keeper false Free (Matlab101GTO.algo : Algo c Unit Unit) :=
  .plain hE hP fun ep r q y => .bindGet fun s _ _ _ => .bind (Matlab101GTO.kp_swarm hE .nil) fun _ q y _ => .bindGet fun s hs _ _ => .bindNoSave fun b =>
    .bind (.greedyLoop hE (L := []) .rfl) fun _ q y _ => .bindGet fun s _ _ _ => .bindNoSave fun b => .bindDraw fun u => Matlab101GTO.kp_swarm hE .rfl

theorem OriginalAGTO.keeper (hE : c.E.Lawful) (hP : c.P.Lawful) {p : OriginalAGTO.Params K} : Keeper false Free (OriginalAGTO.algo p : Algo c Unit Unit) :=
  .plain hE hP fun ep r q y => .bindDraw fun u => .bindDraw fun v => .bind (.greedyLoop hE (L := []) .nil) fun _ q y _ => .bindGet fun s _ _ _ => .bindNoSave fun b =>
    .greedyLoop hE .rfl

theorem MGTO.keeper (hE : c.E.Lawful) (hP : c.P.Lawful) {p : K} : Keeper false Free (MGTO.algo p : Algo c Unit Unit) :=
  .plain hE hP fun ep r q y => .bindDraw fun u => .bindDraw fun v => .bindQ (Qt.buildEval hE) fun new _ => .bindSetPop <| .bindGet fun s _ _ _ => .bindNoSave fun b =>
    .bind (.greedyLoop hE (L := []) (.append .nil Dom.rfl.left)) fun _ q y _ => .bindGet fun s _ _ _ => .bindNoSave fun b => .greedyLoop hE .rfl

theorem OriginalNRO.keeper (hE : c.E.Lawful) (hP : c.P.Lawful) : Keeper false Free (OriginalNRO.algo : Algo c Unit Unit) :=
  .plain hE hP fun ep r q y => .bindDraw fun _ => .bindDraw fun _ => .bindDraw fun _ => .bind (.greedyLoop hE (L := []) .nil) fun _ q y _ => .bindGet fun s _ _ _ =>
    .bind (.greedyLoop hE (L := []) .rfl) fun _ q y _ => .bindGet fun s _ _ _ => .greedyLoop hE .rfl

/-! ## a whole new population each epoch -/

theorem OriginalDOA.keeper (hE : c.E.Lawful) (hP : c.P.Lawful) : Keeper false Free (OriginalDOA.algo : Algo c Unit Unit) :=
  .plain hE hP fun ep r q y => .bindGet fun s _ _ _ => .ite
    (fun _ => .bindDraw fun _ => .bindQ (Qt.evalAll hE) fun new _ => .replace .rfl)
    fun _ => .bindDraw fun _ => .bindQ (Qt.evalAll hE) fun new _ => .replace .rfl

theorem OriginalOrcaOA.keeper (hE : c.E.Lawful) (hP : c.P.Lawful) {p : OriginalOrcaOA.Params K} : Keeper false Free (OriginalOrcaOA.algo p : Algo c Unit K) :=
  .full hE hP fun ep r q y => .bindQ (Qt.buildEval hE) fun new _ => .bindSetPop <| .modExt ⟨Dom.left .rfl, trivial⟩

theorem OriginalSquirrelSA.keeper (hE : c.E.Lawful) (hP : c.P.Lawful) {p : OriginalSquirrelSA.Params K} : Keeper false Free (OriginalSquirrelSA.algo p : Algo c Unit Unit) :=
  .plain hE hP fun ep r q y => .bindGet fun s _ _ _ => .bindDraw fun _ => .bindQ (Qt.buildEval hE) fun new _ => .replace .rfl

theorem OriginalPSS.keeper (hE : c.E.Lawful) {p : OriginalPSS.Params K} : Keeper true Free (OriginalPSS.algo p : Algo c Unit Bool) := by
  refine .customFresh hE (fun y => ?_) fun ep r q y => .bindDraw fun _ => .bindQ (Qt.buildEval hE) fun new _ => .bindSetPop <| .bindDraw fun _ => .bindGet fun _ _ _ _ =>
    .modExt ⟨Dom.left .rfl, trivial⟩
  refine .bind0 .liftD fun rows _ => .bind (H := fun l => l) (R := Any) ?_ fun pop _ => .pure ⟨trivial, fun a ha => ⟨a, ha, NoWorse.rfl⟩⟩
  refine (Qb.iter (H := fun l => l) (fun _ _ => True) trivial fun i l _ _ => .bind0 .liftD fun x _ => .bind (Qb.getTarget (e := ())) fun t _ =>
    Qb.pure ⟨⟨trivial, fun a ha => ⟨a, List.mem_append_left _ ha, NoWorse.rfl⟩⟩, fun a ha => ⟨a, List.mem_append_right _ ha, NoWorse.rfl⟩⟩).weak fun _ _ => trivial

/-! ## the rest -/

theorem DT.nthT {l : List α} {i : Nat} : DT (fun _ => True) (Mealpy.nth l i : D c α) (fun a => l[i]? = some a) := fun g => Wp.any (by
  intro a g' h
  unfold Mealpy.nth at h
  cases hl : l[i]? with
  | none => rw [hl] at h; cases h
  | some b =>
    rw [hl] at h
    injection h with h
    rw [(Prod.mk.inj h).1])

theorem DT.bestT (hE : c.E.Lawful) {pop : List (Agent d K X)} :
    DT (fun _ => True) (Mealpy.bestAgent pop : D c _) (fun a => a ∈ pop ∧ ∀ b ∈ pop, NoWorse c.P.mm a.fit b.fit) := by
  by_cases h : 0 < pop.length
  · exact DT.bestAgent' hE h
  · have h0 : pop = [] := List.length_eq_zero_iff.1 (by omega)
    subst h0
    refine fun g => Wp.any fun a g' hh => ?_
    unfold Mealpy.bestAgent at hh
    have hl := getSorted_length hE.argsortLaw ([] : List (Agent d K X)) c.P.mm
    unfold getBest at hh
    generalize getSorted c.E.argsort ([] : List (Agent d K X)) c.P.mm = p at hh hl
    obtain ⟨p1, p2⟩ := p
    obtain rfl := List.length_eq_zero_iff.1 hl
    cases hh

theorem CMA_ES.keeper (hE : c.E.Lawful) (hP : c.P.Lawful) : Keeper false Free (CMA_ES.algo : Algo c (Vec d K) (CMA_ES.Vars d K)) :=
  .pre hE hP fun ep r q y => .bindQ (Qt.buildEval hE) fun new _ => .bindSetPop <| .bind (.sortPop hE (L := []) Dom.rfl.left) fun _ q y _ => .bindGet fun s _ _ _ =>
    .bindDraw fun _ => .bind (.mapExt (L := []) .rfl) fun _ q y _ => .bindGet fun s _ _ _ => .bindDraw fun _ => .modExt ⟨.rfl, trivial⟩

theorem QleSCA.keeper (hE : c.E.Lawful) (hP : c.P.Lawful) {p : QleSCA.Params K} : Keeper false Free (QleSCA.algo p : Algo c (QleSCA.Table K) Unit) :=
  .full hE hP fun ep r q y => .iter (fun _ => InPop []) (fun _ => Any3) .nil trivial fun i _ q y _ _ => .bindGet fun s _ _ _ => .bindPop fun x hx => .bindDraw fun p =>
    .bindQ (Qt.getTarget (e := x.ext)) fun t ht => .ite (fun h => .setBest hx (compareTarget_true h) NoWorse.rfl .rfl)
      fun h => .setBest hx NoWorse.rfl (compareTarget_false (by simpa using h)) .rfl

theorem Kp.greedyTwice (hE : c.E.Lawful) {n : Nat} {mk : St c X Y → Nat → D c (Vec d K × X)} :
    Kp r q y [] (Mealpy.greedyTwice n mk : M c X Y Unit) (InPop []) Any3 := by
  unfold Mealpy.greedyTwice
  refine .ite (fun _ => .bindGet fun s _ _ _ => ?_) fun _ => ?_
  · refine .bindQ (H := fun l => l.map (fun p => (⟨p.1, c.P.target p.1, p.2⟩ : Agent d K X))) (S := Any) ?_ fun pend _ => ?_
    · refine (Qt.iter (fun _ _ => True) trivial fun i l _ _ => .bindDraw fun p => .bind (Qt.getTarget (e := p.2)) fun t ht => Qt.pure ⟨⟨trivial, ?_⟩, ?_⟩).weak fun _ _ => trivial
      · exact fun a ha => ⟨a, by rw [List.map_append]; exact List.mem_append_left _ ha, NoWorse.rfl⟩
      · intro a ha
        rw [List.mem_singleton.1 ha, ht]
        exact ⟨_, by rw [List.map_append]; exact List.mem_append_right _ (List.mem_singleton.2 rfl), NoWorse.rfl⟩
    · refine .bindQ (Qt.liftB (Qb.updateTargets hE)) fun new hnew => ?_
      rw [← hnew]
      exact .post (.selectGreedy (.append (.append .nil Dom.rfl.right.left) Dom.rfl.right.left)) fun _ _ _ _ => ⟨.rfl, trivial⟩
  · refine .iter (fun _ => InPop []) (fun _ => Any3) .nil trivial fun i _ q y _ _ => .bindGet fun s _ _ _ => .bindDraw fun p => .bindQ (Qt.getTarget (e := p.2)) fun t ht =>
      .bindQ (Qt.getTarget (e := p.2)) fun t' ht' => .bindPop fun old ho => ?_
    rw [ht, ht']
    refine .pre (G' := q ++ [] ++ [⟨p.1, c.P.target p.1, p.2⟩]) (.append .rfl Dom.rfl.right) (.setBest ho ?_ ?_ .rfl)
    · exact (getBetterAgent_cases old _ c.P.mm).2.1
    · exact (getBetterAgent_cases old _ c.P.mm).2.2

theorem OriginalNMRA.keeper (hE : c.E.Lawful) (hP : c.P.Lawful) {p : K} : Keeper false Free (OriginalNMRA.algo p : Algo c Unit Unit) :=
  .plain hE hP fun ep r q y => .greedyTwice hE

theorem ImprovedNMRA.keeper (hE : c.E.Lawful) (hP : c.P.Lawful) {p : ImprovedNMRA.Params K} : Keeper false Free (ImprovedNMRA.algo p : Algo c Unit Unit) :=
  .plain hE hP fun ep r q y => .greedyTwice hE

theorem OriginalMA.qt_climb (hE : c.E.Lawful) {p : OriginalMA.Params K} {a : Agent d K (List Bool)} :
    Qt (OriginalMA.climb p a : M c (List Bool) Unit _) (fun b => [b]) (fun b => NoWorse c.P.mm b.fit a.fit) :=
  .bindDraw fun pend => .bind (Qt.evalAll hE) fun new _ => (Qt.drawR (DT.bestT hE)).mono (by simp)
    fun b hb => ⟨hb.2 a (by simp), fun x hx => ⟨b, by simp, hb.2 x (by simp [hx])⟩⟩

theorem OriginalMA.keeper (hE : c.E.Lawful) (hP : c.P.Lawful) {p : OriginalMA.Params K} : Keeper false Free (OriginalMA.algo p : Algo c (List Bool) Unit) :=
  .full hE hP fun ep r q y => .bindGet fun s _ _ _ => .bindDraw fun _ => .bindQ (Qt.buildEval hE) fun new _ => .bindSetPop <| by
    refine .post (.iter (fun _ => InPop []) (fun i _ q' _ => ∀ k, i ≤ k → q'[k]? = new[k]?) (.append .nil Dom.rfl.left) (fun _ _ => rfl) ?_) fun _ _ _ _ => ⟨.rfl, trivial⟩
    refine fun i _ q y _ hq => .bindDraw fun u => .ite (fun _ => .bind0 (.drawR DT.nthT) fun a ha => .bindQ (OriginalMA.qt_climb hE) fun b hb => .setAt fun hi => ⟨?_, ?_⟩) fun _ =>
      .pure .rfl fun k hk => hq k (by omega)
    · exact .slot ((hq i le_rfl).trans ha) hb NoWorse.rfl
    · intro k hk
      rw [List.getElem?_set_ne (by omega)]
      exact hq k (by omega)

theorem EFO.lastSlot {a : Agent d K X} {mm : MinMax} (h : q ≠ []) : Dom mm r [a] (q.set (q.length - 1) a ++ []) :=
  .one (by
    rw [List.append_nil]
    exact List.mem_of_getElem? (List.getElem?_set_self (by have := List.length_pos_iff.2 h; omega))) NoWorse.rfl

theorem OriginalEFO.keeper (hE : c.E.Lawful) (hP : c.P.Lawful) {p : DevEFO.Params K} : Keeper false Free (OriginalEFO.algo p : Algo c Unit (OriginalEFO.Vars d K)) := by
  refine ⟨fun o _ => Qb.initial hE (fun y p hp => ?_) o, .pure, fun ep r q y hq _ _ => ?_⟩
  · exact .bind (Qb.startPop hE hP hp) fun l hl => .bind0 .liftD fun y _ => .pure ⟨⟨trivial, fun a ha => ⟨a, hl.2 a ha, NoWorse.rfl⟩⟩, fun a ha => ⟨a, ha, NoWorse.rfl⟩⟩
  · refine .bindGet fun s _ _ _ => .bindDraw fun x => .bindDraw fun rp => .bind (F := fun _ _ _ => []) (R := fun _ q' _ => q' = q) (.ite (fun _ => .modExt ⟨.nil, rfl⟩) fun _ => .pure .nil rfl) ?_
    rintro _ q' y' rfl
    exact .bindQ Qt.agentOf fun a _ => .reshape ⟨.append .nil (EFO.lastSlot hq), trivial⟩

/-! ### tug of war -/

theorem Dom.reext {f : K → X → X} {l : List (Agent d K X)} {ws : List K} {mm : MinMax} (h : l.length ≤ ws.length) :
    Dom mm r l (List.zipWith (fun a w => { a with ext := f w a.ext }) l ws) := by
  intro a ha
  obtain ⟨k, hk, rfl⟩ := List.getElem_of_mem ha
  refine ⟨_, List.mem_cons_of_mem _ (List.mem_of_getElem (i := k) (h := by simp; omega) (Eq.refl _)), ?_⟩
  rw [List.getElem_zipWith]
  exact NoWorse.rfl

theorem OriginalTWO.weighT {l : List (Agent d K K)} {r : Agent d K K} (hl : l.length = c.popSize) :
    DT (fun _ => True) (OriginalTWO.weigh l : D c _) (fun l' => l'.length = c.popSize ∧ Dom c.P.mm r l l' ∧ ∀ a ∈ l, ∃ e ∈ l', NoWorse c.P.mm e.fit a.fit) := by
  unfold OriginalTWO.weigh
  dsimp only
  refine DT.bind (R := fun fs => fs.length = l.length) ?_ fun fs hfs => DT.ite (fun _ => DT.throw trivial) fun _ => DT.pure ?_
  · refine DT.ite (fun _ => ?_) fun _ => DT.pure (by simp)
    rw [hl]
    exact DT.repMT fun _ _ => DT.any
  · refine ⟨by simp [hfs, hl], Dom.reext (f := fun w _ => w / _ + 0.1) (by simp [hfs]), fun a ha => ?_⟩
    obtain ⟨k, hk, rfl⟩ := List.getElem_of_mem ha
    refine ⟨_, List.mem_of_getElem (i := k) (h := by simp [hfs]; omega) rfl, ?_⟩
    rw [List.getElem_zipWith]
    exact NoWorse.rfl

theorem OriginalTWO.qb_init (hE : c.E.Lawful) (hP : c.P.Lawful) {y : Unit} {p : Option (List (Agent d K K))} (hp : Given c p) :
    Qb (OriginalTWO.initialization y p : B c _) (fun r => r.1) (fun r => ∀ a ∈ p.getD [], ∃ e ∈ r.1, NoWorse c.P.mm e.fit a.fit) := by
  refine .bind (Qb.startPop hE hP hp) fun l hl => ?_
  refine Qb.bind0 (R := fun l' => ∀ a ∈ l, ∃ e ∈ l', NoWorse c.P.mm e.fit a.fit) (.liftDR ?_) fun l' hl' => .pure ⟨fun a ha => hl' a (hl.2 a ha), hl'⟩
  intro g
  by_cases hne : l = []
  · exact Wp.any fun _ _ _ => by simp [hne]
  · exact Wp.mono (OriginalTWO.weighT (r := l.head hne) hl.1 g) fun _ _ h => h.2.2

theorem OriginalTWO.keeper (hE : c.E.Lawful) (hP : c.P.Lawful) : Keeper false Free (OriginalTWO.algo : Algo c K Unit) :=
  .custom hE (fun y p hp => OriginalTWO.qb_init hE hP hp) fun ep r q y => .bindGet fun s _ _ _ => .bindDraw fun ps => .bindQ (Qt.buildEval hE) fun new hn =>
    .bind0 (.drawR (OriginalTWO.weighT (r := r) hn)) fun new' h => .replace h.2.1

theorem OppoTWO.qt_settle (hE : c.E.Lawful) {mk : St c K Unit → Nat → D c (Vec d K × K)} :
    Qt (OppoTWO.settle mk : M c K Unit _) (fun l => l) (fun l => l.length = c.popSize) := by
  unfold OppoTWO.settle
  refine .ite (fun _ => Qt.buildEval hE) fun _ => ?_
  refine Qt.iter (fun i (l : List (Agent d K K)) => l.length = i) rfl fun i l _ hl => .bindGet fun s => .bindDraw fun q => .bindDraw fun pos => .bind (Qt.getTarget (e := q.2)) fun t ht => Qt.pure
    ⟨⟨by simp [hl], fun x hx => ⟨x, by simp [hx], NoWorse.rfl⟩⟩, fun x hx => ⟨⟨pos, t, q.2⟩, by simp, by rw [List.mem_singleton.1 hx]; exact NoWorse.rfl⟩⟩

theorem LevyTWO.keeper (hE : c.E.Lawful) (hP : c.P.Lawful) : Keeper false Free (LevyTWO.algo : Algo c K Unit) := by
  refine .custom hE (fun y p hp => OriginalTWO.qb_init hE hP hp) fun ep r q y => .bindGet fun s _ _ _ => .bindDraw fun ps => .bindQ (OppoTWO.qt_settle hE) fun new hn => .bindSetPop ?_
  refine .bind (.iter (fun _ => InPop []) (fun _ _ q' _ => q'.length = c.popSize) (.append .nil Dom.rfl.left) hn fun i _ q y _ hl => ?_) fun _ q y hl => ?_
  · refine .bindDraw fun u => .ite (fun _ => .bindDraw fun _ => .bindPop fun a ha => .bindDraw fun _ => ?_) fun _ => .pure .rfl hl
    refine .bindQ Qt.agentOf fun a _ => .bindPop fun old ho => .ite (fun h => .setAt fun hi => ⟨.slot ho (compareTarget_true h) NoWorse.rfl, by simp [hl]⟩) fun h =>
      .pure (.append .rfl (.one (List.mem_append_left _ (List.mem_of_getElem? ho)) (compareTarget_false (by simpa using h)))) hl
  · exact .bindGet fun s hs _ _ => .bind0 (.drawR (OriginalTWO.weighT (r := r) (by rw [hs]; exact hl))) fun l h => .replace (by
      rw [hs] at h
      exact .append h.2.1 .nil)

/-! ### atoms, egrets, whales -/

theorem Kp.selectKeep {G new : List (Agent d K X)} : Kp r q y G (Mealpy.selectGreedy new : M c X Y Unit) (fun _ _ _ => G)
    (fun _ q' _ => Dom c.P.mm r new q') := fun s hq hy hs =>
  Wp.and (Wp.any (by
    intro u s' h
    unfold Mealpy.selectGreedy at h
    split at h
    · injection h with h
      obtain ⟨-, rfl⟩ := Prod.mk.inj h
      exact ⟨hs.gbest, hs.record, hs.log⟩
    · cases h)) (Wp.mono (Kp.selectGreedy (L := G) Dom.rfl.right s hq hy hs) fun _ _ h => h.2)

theorem Kp.greedyNew (hE : c.E.Lawful) {n : Nat} {mk : St c X Y → Nat → D c (Vec d K × X)} :
    Kp r q y [] (Mealpy.greedyNew n mk : M c X Y _) (fun l _ _ => l) (fun l q' _ => Dom c.P.mm r l q') := by
  unfold Mealpy.greedyNew
  refine .ite (fun _ => .bindGet fun s _ _ _ => .bindDraw fun pend => .bindQ (Qt.updateTargets hE) fun new _ => .bind .selectKeep fun _ q y h => .pure .rfl h) fun _ => ?_
  refine .iter (fun _ l _ _ => l) (fun _ l q' _ => Dom c.P.mm r l q') .nil .nil fun i l q y _ hl => .bindGet fun s _ _ _ => .bindDraw fun p => .bindQ (Qt.getTarget (e := p.2)) fun t _ =>
    .bindPop fun old ho => .bindSetAt fun hi => .pure .rfl ?_
  have := Dom.slot (mm := c.P.mm) (r := r) (H := []) ho (getBetterAgent_cases ⟨p.1, t, p.2⟩ old c.P.mm).2.2 (getBetterAgent_cases ⟨p.1, t, p.2⟩ old c.P.mm).2.1
  rw [List.append_nil, List.append_nil] at this
  exact Dom.trans (.append hl.left Dom.rfl.right) this

theorem OriginalASO.keeper (hE : c.E.Lawful) (hP : c.P.Lawful) {p : OriginalASO.Params K} : Keeper false Free (OriginalASO.algo p : Algo c (Vec d K × K) Unit) :=
  .full hE hP fun ep r q y => .bindGet fun s _ _ _ => .bind (F := fun _ _ _ => []) (R := Any3) (.reshape ⟨.nil, trivial⟩) fun _ q y _ => .bindGet fun s _ _ _ => .bindDraw fun acc =>
    .bind (.greedyNew hE) fun new q y hn => .bind0 (.drawR (DT.bestT hE)) fun b hb => .bindGet fun s _ _ hg => .ite
      (fun h => .bindDraw fun i => .setAt fun hi => ⟨.all List.mem_cons_self fun a ha => (hg ▸ compareTarget_true h).trans (hb.2 a ha), trivial⟩)
      fun _ => .pure hn.left trivial

theorem argbest {l : List (Agent d K X)} {k : Nat} {b : Agent d K X} {mm : MinMax}
    (hk : k = match mm with | .min => argminL (l.map Agent.fit) | .max => argmaxL (l.map Agent.fit)) (hb : l[k]? = some b) : ∀ a ∈ l, NoWorse mm b.fit a.fit := by
  intro a ha
  have hne : l.map Agent.fit ≠ [] := fun h => by rw [List.map_eq_nil_iff] at h; rw [h] at ha; cases ha
  have hbf : (l.map Agent.fit)[k]? = some b.fit := by rw [List.getElem?_map, hb]; rfl
  cases mm with
  | min =>
    obtain ⟨m, hm⟩ := listMin_isSome hne
    have hlt : k < (l.map Agent.fit).length := hk ▸ argminL_lt (List.length_pos_iff.2 hne)
    have h1 : (l.map Agent.fit)[k] = minL (l.map Agent.fit) := by
      subst hk
      exact of_decide_eq_true (List.findIdx_getElem (p := fun x => decide (x = minL (l.map Agent.fit))) (w := hlt))
    rw [List.getElem?_eq_getElem hlt] at hbf
    have h2 : b.fit = m := by rw [← Option.some.inj hbf, h1]; simp [minL, hm]
    show b.fit ≤ a.fit
    rw [h2]
    exact (listMin_some hm).2 _ (List.mem_map_of_mem ha)
  | max =>
    obtain ⟨m, hm⟩ := listMax_isSome hne
    have hlt : k < (l.map Agent.fit).length := hk ▸ argmaxL_lt (List.length_pos_iff.2 hne)
    have h1 : (l.map Agent.fit)[k] = maxL (l.map Agent.fit) := by
      subst hk
      exact of_decide_eq_true (List.findIdx_getElem (p := fun x => decide (x = maxL (l.map Agent.fit))) (w := hlt))
    rw [List.getElem?_eq_getElem hlt] at hbf
    have h2 : b.fit = m := by rw [← Option.some.inj hbf, h1]; simp [maxL, hm]
    show a.fit ≤ b.fit
    rw [h2]
    exact (listMax_some hm).2 _ (List.mem_map_of_mem ha)

/-- the slots before the `i`-th are filled -/
theorem Dom.fill {i : Nat} {G new : List (Agent d K X)} {b : Agent d K X} {mm : MinMax} (hi : i < q.length) (hG : Dom mm r G (q.take i)) (hb : ∀ a ∈ new, NoWorse mm b.fit a.fit) :
    Dom mm r (G ++ new) ((q.set i b).take (i + 1)) := by
  refine .append (hG.trans (.sub fun a ha => ?_)) (.all (b := b) (List.mem_cons_of_mem _ ?_) hb)
  · obtain ⟨k, hk, rfl⟩ := List.getElem_of_mem ha
    have hk' : k < i := by simp at hk; omega
    refine List.mem_of_getElem? (i := k) ?_
    rw [List.getElem?_take_of_lt (by omega), List.getElem?_set_ne (by omega)]
    simp at hk ⊢
  · refine List.mem_of_getElem? (i := i) ?_
    rw [List.getElem?_take_of_lt (by omega), List.getElem?_set_self hi]

theorem OriginalESOA.kp_round {ep idx : Nat} {r : Agent d K (OriginalESOA.Att d K)} {q : List (Agent d K (OriginalESOA.Att d K))} {y : Unit} :
    Kp r q y (q.take idx) (OriginalESOA.round ep idx : M c _ Unit Unit) (fun _ q' _ => q'.take (idx + 1)) Any3 := by
  unfold OriginalESOA.round
  refine .bindGet fun s hs _ _ => .bind0 (.drawR DT.nthT) fun x hx => .bindDraw fun ge => ?_
  rw [hs] at hx
  obtain ⟨g, e⟩ := ge
  refine .bindDraw fun x0 => .bindQ (Qt.getTarget (e := e)) fun y0 _ => .bindDraw fun _ => .bindDraw fun xn => .bindQ (Qt.getTarget (e := e)) fun yn _ => .bindDraw fun _ => .bindDraw fun _ =>
    .bindDraw fun xm => .bindQ (Qt.getTarget (e := e)) fun ym _ => ?_
  refine .pre (G' := q.take idx ++ [⟨x0, y0, e⟩, ⟨xn, yn, e⟩, ⟨xm, ym, e⟩]) (.sub (by simp)) ?_
  refine .bind0 (.drawR DT.nthT) fun b hb => ?_
  have hbest := argbest rfl hb
  have hset : ∀ b' : Agent d K (OriginalESOA.Att d K), NoWorse c.P.mm b'.fit b.fit →
      Kp r q y (q.take idx ++ [⟨x0, y0, e⟩, ⟨xn, yn, e⟩, ⟨xm, ym, e⟩]) (Mealpy.setAt idx b' : M c _ Unit Unit) (fun _ q' _ => q'.take (idx + 1)) Any3 := fun b' hb' =>
    .setAt fun hi => ⟨.fill hi .rfl fun a ha => hb'.trans (hbest a ha), trivial⟩
  refine .ite (fun h => .ite (fun _ => hset _ NoWorse.rfl) fun _ => hset _ NoWorse.rfl) fun h => .bindDraw fun u => .ite (fun _ => hset _ NoWorse.rfl) fun _ => hset _ ?_
  exact compareTarget_false (by simpa using h)

theorem OriginalESOA.keeper (hE : c.E.Lawful) (hP : c.P.Lawful) : Keeper false Free (OriginalESOA.algo : Algo c (OriginalESOA.Att d K) Unit) :=
  .full hE hP fun ep r q y => .post (.iter (fun i _ q' _ => q'.take i) (fun _ => Any3) .nil trivial fun i _ q y _ _ => OriginalESOA.kp_round) fun _ q _ _ =>
    ⟨Dom.left (.sub fun _ h => List.mem_of_mem_take h), trivial⟩

theorem DT.choiceT (hE : c.E.Lawful) {n k : Nat} : DT (fun _ => True) (Mealpy.choice n k false : D c (List Nat)) (fun l => l.length = k ∧ (∀ i ∈ l, i < n) ∧ l.Nodup) := by
  by_cases h : choiceErr n k false = true
  · unfold Mealpy.choice
    rw [if_pos h]
    exact DT.throw trivial
  · exact DT.mono (DT.choice hE (by simpa using h)) fun l hl => ⟨hl.1, hl.2.1, hl.2.2 rfl⟩

/-- some new agents move into different slots -/
theorem Kp.moveIn {is : List Nat} {new : List (Agent d K X)} {n : Nat} (hn : new.length = n) (his : is.Nodup) :
    Kp r q y ([] ++ new) (Mealpy.iter n (fun k _ => do
      let i ← draw (nth is k)
      let a ← draw (nth new k)
      Mealpy.setAt i a) () : M c X Y Unit) (InPop []) Any3 := by
  refine .post (.iter (fun _ _ _ _ => new) (fun k _ q' _ => ∀ j, j < k → ∃ i a, is[j]? = some i ∧ new[j]? = some a ∧ q'[i]? = some a) .rfl (by simp) ?_) ?_
  · refine fun k _ q y hk h => .bind0 (.drawR DT.nthT) fun i hi => .bind0 (.drawR DT.nthT) fun a ha => .setAt fun hl => ⟨.rfl, fun j hj => ?_⟩
    by_cases hjk : j = k
    · subst hjk
      exact ⟨i, a, hi, ha, List.getElem?_set_self hl⟩
    · obtain ⟨i', a', h1, h2, h3⟩ := h j (by omega)
      refine ⟨i', a', h1, h2, ?_⟩
      rw [List.getElem?_set_ne]
      · exact h3
      · rintro rfl
        have hjl : j < is.length := by
          by_contra hc
          rw [List.getElem?_eq_none (by omega)] at h1
          cases h1
        exact hjk ((List.getElem?_inj hjl his).1 (h1.trans hi.symm))
  · refine fun _ q' _ h => ⟨Dom.left (.sub fun a ha => ?_), trivial⟩
    obtain ⟨j, hj, rfl⟩ := List.getElem_of_mem ha
    obtain ⟨i, a, -, h2, h3⟩ := h j (by omega)
    rw [List.getElem?_eq_getElem hj] at h2
    rw [Option.some.inj h2]
    exact List.mem_of_getElem? h3

theorem HI_WOA.keeper (hE : c.E.Lawful) (hP : c.P.Lawful) {p : HI_WOA.Params} (hp : 1 ≤ p.feedbackMax) : Keeper false Free (HI_WOA.algo p : Algo c Unit Nat) :=
  .full hE hP fun ep r q y => .bind (.greedyLoop hE (L := []) .nil) fun _ q y _ => .bindGet fun s hs hy hg => .bind0 (.drawR (DT.bestT hE)) fun b hb => .bindExt <|
    .bindGet fun s' _ hy' _ => .ite (fun h => by
      rw [hy'] at h
      have he : b.fit = r.fit := by
        by_contra hne
        rw [if_neg (by rw [hg]; exact hne)] at h
        omega
      refine .pre (G' := []) (.append (.all List.mem_cons_self fun a ha => ?_) .nil) (.bind0 (.drawR (DT.choiceT hE)) fun is his =>
        .bindQ (Qt.liftB (Qb.generatePopulation hE hP)) fun new hn => .moveIn hn his.2.2)
      rw [← he]
      exact hb.2 a (hs ▸ ha)) fun _ => .pure .rfl trivial

/-! ### search and rescue -/

namespace SARO

/-- what the second phase knows about a human: no better than the best agent on record, or just replaced -/
def Safe (mm : MinMax) (r : Agent d K Unit) (q : Team d K) (i : Nat) : Prop :=
  ∀ a, q.1[i]? = some a → NoWorse mm r.fit a.fit ∨ ∀ u, q.2.2[i]? = some u → u = 0

/-- what `accept` does -/
def Done (mm : MinMax) (new : List (Agent d K Unit)) (idx : Nat) (q q' : Team d K) : Prop :=
  ∃ a x, new[idx]? = some a ∧ q.1[idx]? = some x ∧
    ((NoWorse mm a.fit x.fit ∧ q'.1 = q.1.set idx a ∧ q'.2.2 = q.2.2.set idx 0) ∨
     (NoWorse mm x.fit a.fit ∧ q'.1 = q.1 ∧ ∃ u, q.2.2[idx]? = some u ∧ q'.2.2 = q.2.2.set idx (u + 1)))

theorem dt_done {new : List (Agent d K Unit)} {idx : Nat} {q : Team d K} :
    DT (fun _ => True) (accept new idx q : D c (Team d K)) (Done c.P.mm new idx q) := by
  unfold accept
  refine DT.bind DT.nthT fun a ha => DT.bind DT.nthT fun x hx => DT.ite (fun h => DT.bind DT.any fun k _ => DT.pure ⟨a, x, ha, hx, .inl ⟨compareTarget_true h, rfl, rfl⟩⟩) fun h =>
    DT.bind DT.nthT fun u hu => DT.pure ⟨a, x, ha, hx, .inr ⟨compareTarget_false (by simpa using h), rfl, u, hu, rfl⟩⟩

theorem lt_of_some {l : List α} {i : Nat} {a : α} (h : l[i]? = some a) : i < l.length := by
  by_contra hc
  rw [List.getElem?_eq_none (by omega)] at h
  cases h

theorem set_some_zero {l : List Nat} {i u : Nat} (h : (l.set i 0)[i]? = some u) : u = 0 := by
  have := lt_of_some h
  rw [List.length_set] at this
  rw [List.getElem?_set_self this] at h
  exact (Option.some.inj h).symm

/-- other slots are left alone, and a replaced human is marked -/
theorem Done.safe {mm : MinMax} {new : List (Agent d K Unit)} {idx i : Nat} {q q' : Team d K} {r : Agent d K Unit} (h : Done mm new idx q q') (hs : Safe mm r q i)
    (hi : i = idx → ∀ x, q.1[idx]? = some x → NoWorse mm r.fit x.fit) : Safe mm r q' i := by
  obtain ⟨a, x, ha, hx, ⟨hn, h1, h2⟩ | ⟨hn, h1, u, hu, h2⟩⟩ := h
  · intro b hb
    rw [h2]
    by_cases hii : i = idx
    · subst hii
      exact .inr fun u hu => set_some_zero hu
    · rw [h1, List.getElem?_set_ne (by omega)] at hb
      rcases hs b hb with h | h
      · exact .inl h
      · exact .inr fun u hu => h u (by rwa [List.getElem?_set_ne (by omega)] at hu)
  · intro b hb
    rw [h1] at hb
    by_cases hii : i = idx
    · subst hii
      exact .inl (hi rfl b hb)
    · rcases hs b hb with h | h
      · exact .inl h
      · exact .inr fun u hu => h u (by rw [h2, List.getElem?_set_ne (by omega)] at hu; exact hu)

theorem Done.dom {mm : MinMax} {new : List (Agent d K Unit)} {idx : Nat} {q q' : Team d K} {r : Agent d K Unit} (h : Done mm new idx q q') :
    Dom mm r q.1 q'.1 ∧ ∀ a, new[idx]? = some a → Dom mm r [a] q'.1 := by
  obtain ⟨a, x, ha, hx, ⟨hn, h1, h2⟩ | ⟨hn, h1, u, hu, h2⟩⟩ := h
  · refine ⟨h1 ▸ Dom.set hx hn, fun b hb => ?_⟩
    rw [ha] at hb
    obtain rfl := Option.some.inj hb
    exact .one (h1 ▸ List.mem_of_getElem? (List.getElem?_set_self (lt_of_some hx))) NoWorse.rfl
  · refine ⟨h1 ▸ Dom.rfl, fun b hb => ?_⟩
    rw [ha] at hb
    obtain rfl := Option.some.inj hb
    exact .one (h1 ▸ List.mem_of_getElem? hx) hn

theorem Dom.takeSucc {mm : MinMax} {l G : List (Agent d K Unit)} {r : Agent d K Unit} {k : Nat} (h : Dom mm r (l.take k) G) (h' : ∀ a, l[k]? = some a → Dom mm r [a] G) :
    Dom mm r (l.take (k + 1)) G := by
  rw [List.take_add_one]
  refine .append h fun a ha => ?_
  rw [Option.mem_toList] at ha
  exact h' a ha a (List.mem_singleton.2 rfl)

/-- the first phase: every new agent is covered by the humans, and nobody who was replaced is marked as unsuccessful -/
theorem dt_first {new : List (Agent d K Unit)} {r : Agent d K Unit} {n : Nat} {q : Team d K} (hn : new.length = n) (hr : ∀ a ∈ q.1, NoWorse c.P.mm r.fit a.fit) :
    DT (fun _ => True) (iter n (accept new) q : D c (Team d K)) (fun q' => Dom c.P.mm r new q'.1 ∧ ∀ i, Safe c.P.mm r q' i) := by
  refine DT.mono (DT.iter (fun k (q' : Team d K) => Dom c.P.mm r (new.take k) q'.1 ∧ (∀ i, Safe c.P.mm r q' i) ∧ ∀ i, k ≤ i → ∀ x, q'.1[i]? = some x → NoWorse c.P.mm r.fit x.fit) n
    ⟨.nil, fun i a ha => .inl (hr a (List.mem_of_getElem? ha)), fun i _ x hx => hr x (List.mem_of_getElem? hx)⟩ fun k q1 hk ⟨h1, h2, h3⟩ => DT.mono dt_done fun q2 hd => ⟨?_, ?_, ?_⟩) ?_
  · exact Dom.takeSucc (h1.trans hd.dom.1) hd.dom.2
  · exact fun i => hd.safe (h2 i) fun e x hx => h3 k le_rfl x hx
  · intro i hi x hx
    obtain ⟨a, y, ha, hy, ⟨hn, e1, e2⟩ | ⟨hn, e1, u, hu, e2⟩⟩ := hd
    · rw [e1, List.getElem?_set_ne (by omega)] at hx
      exact h3 i (by omega) x hx
    · rw [e1] at hx
      exact h3 i (by omega) x hx
  · rintro q' ⟨h1, h2, -⟩
    rw [← hn, List.take_length] at h1
    exact ⟨h1, h2⟩

theorem kp_second {p : Params K} {new : List (Agent d K Unit)} {r : Agent d K Unit} {n : Nat} {q : List (Agent d K Unit)} {y : List Nat} {t : Team d K}
    (hn : new.length = n) (hp : 1 ≤ p.mu) (ht : ∀ i, Safe c.P.mm r t i) :
    Kp r q y (t.1 ++ new) (iter n (acceptOrLeave p new) t : M c Unit (List Nat) (Team d K)) (fun t _ _ => t.1) Any3 := by
  refine .post (.iter (fun k t _ _ => t.1 ++ new.drop k) (fun k t _ _ => ∀ i, k ≤ i → Safe c.P.mm r t i) .rfl (fun i _ => ht i) fun k t q y hk hs => ?_) fun t _ _ _ => ⟨?_, trivial⟩
  · unfold acceptOrLeave
    refine .bind0 (.drawR dt_done) fun t1 hd => ?_
    have hdrop : Dom c.P.mm r (t.1 ++ new.drop k) (t1.1 ++ new.drop (k + 1)) := by
      refine .append hd.dom.1.left ?_
      obtain ⟨a, x, ha, -⟩ := id hd
      have hlt := lt_of_some ha
      rw [List.drop_eq_getElem_cons hlt, show new[k] :: new.drop (k + 1) = [new[k]] ++ new.drop (k + 1) from rfl]
      exact .append (hd.dom.2 _ (List.getElem?_eq_getElem hlt)).left Dom.rfl.right
    refine .bind0 (.drawR DT.nthT) fun u hu => .ite (fun hmu => ?_) fun _ => .pure hdrop fun i hi => hd.safe (hs i (by omega)) fun e => by omega
    refine .bindQ Qt.generateAgent fun a _ => .pure ?_ fun i hi => ?_
    · obtain ⟨b, x, hb, hx, ⟨hn, e1, e2⟩ | ⟨hn, e1, v, hv, e2⟩⟩ := hd
      · rw [e2] at hu
        have := set_some_zero hu
        omega
      · have hxk := lt_of_some hx
        have hu' : u = v + 1 := by
          have := lt_of_some hu
          rw [e2, List.length_set] at this
          rw [e2, List.getElem?_set_self this] at hu
          exact (Option.some.inj hu).symm
        have hrx : NoWorse c.P.mm r.fit x.fit := by
          rcases hs k le_rfl x hx with h | h
          · exact h
          · have := h v hv
            omega
        have hlt := lt_of_some hb
        rw [e1]
        have hset : Dom c.P.mm r t.1 (t.1.set k a) := by
          intro e he
          obtain ⟨j, hj, rfl⟩ := List.getElem_of_mem he
          by_cases hjk : j = k
          · subst hjk
            rw [List.getElem?_eq_getElem hj] at hx
            exact ⟨r, List.mem_cons_self, by rw [Option.some.inj hx]; exact hrx⟩
          · exact ⟨t.1[j], List.mem_cons_of_mem _ (List.mem_of_getElem? (i := j) (by rw [List.getElem?_set_ne (by omega), List.getElem?_eq_getElem hj])), NoWorse.rfl⟩
        refine .append (.append hset.left ?_) (.one (List.mem_append_left _ (List.mem_of_getElem? (List.getElem?_set_self hxk))) NoWorse.rfl)
        rw [List.drop_eq_getElem_cons hlt, show new[k] :: new.drop (k + 1) = [new[k]] ++ new.drop (k + 1) from rfl]
        rw [List.getElem?_eq_getElem hlt] at hb
        rw [Option.some.inj hb]
        exact .append (.oneR (hrx.trans hn)) Dom.rfl.right
    · intro e he
      have hne : i ≠ k := by omega
      have he' : t1.1[i]? = some e := by rwa [List.getElem?_set_ne (by omega)] at he
      rcases (hd.safe (hs i (by omega)) fun e => by omega) e he' with h | h
      · exact .inl h
      · exact .inr fun u hu => h u (by rwa [List.getElem?_set_ne (by omega)] at hu)
  · rw [← hn, List.drop_length, List.append_nil]
    exact .rfl

theorem keeper (hE : c.E.Lawful) (hP : c.P.Lawful) {p : Params K} (hp : 1 ≤ p.mu) {first : List (Agent d K Unit) → Nat → D c (Vec d K)}
    {second : St c Unit (List Nat) → Team d K → Nat → D c (Vec d K)} {sf : Bool} {iv : D c (List Nat)} :
    Keeper false Free (Algo.custom sf (fun _ => pure ()) iv initialization (fun _ => phases p first second) : Algo c Unit (List Nat)) := by
  refine ⟨fun o _ => Qb.initial hE (fun y l hl => ?_) o, .pure, fun ep r q y hq hr _ => ?_⟩
  · refine .bind (H := fun l => l) (R := fun pop => ∀ a ∈ l.getD [], a ∈ pop) ?_ fun pop hpop => .pure ⟨⟨trivial, fun a ha => ⟨a, hpop a ha, NoWorse.rfl⟩⟩, fun a ha => ⟨a, ha, NoWorse.rfl⟩⟩
    cases l with
    | none => exact (Qb.generatePopulation hE hP).weak fun _ _ => by simp
    | some l => exact .bind (Qb.generatePopulation hE hP) fun more _ => .pure ⟨fun a ha => List.mem_append_left _ ha, fun a ha => ⟨a, List.mem_append_right _ ha, NoWorse.rfl⟩⟩
  · refine .bindGet fun s hs _ _ => .bindQ (Qt.buildEval hE) fun new hn => .bind0 (.drawR (dt_first (r := r) hn fun a ha => hr a (hs ▸ List.mem_of_mem_take ha))) fun t ht =>
      .bindQ (Qt.buildEval hE) fun new2 hn2 => .bind (.pre (.append (.append .nil ht.1.left) Dom.rfl.right) (kp_second hn2 hp ht.2)) fun t2 q y _ => .bindExt <| .setPop ⟨Dom.rfl.left.left, trivial⟩

end SARO

theorem OriginalSARO.keeper (hE : c.E.Lawful) (hP : c.P.Lawful) {p : SARO.Params K} (hp : 1 ≤ p.mu) : Keeper false Free (OriginalSARO.algo p : Algo c Unit (List Nat)) :=
  SARO.keeper hE hP hp

theorem DevSARO.keeper (hE : c.E.Lawful) (hP : c.P.Lawful) {p : SARO.Params K} (hp : 1 ≤ p.mu) : Keeper false Free (DevSARO.algo p : Algo c Unit (List Nat)) :=
  SARO.keeper hE hP hp

end Mealpy
