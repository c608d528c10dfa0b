import Verif.Alg.Kit22
import Verif.Alg.Simple4
import Verif.Alg.Simple6
import Verif.Alg.Simple8
import Verif.Alg.Simple10
import Verif.Alg.Simple12
import Verif.Alg.Simple13
import Verif.Alg.Simple14
import Verif.Alg.Kit16

/-! # Algorithms on the settings their other lines exclude

With these settings a run may raise; if it does not, everything the line claims holds. -/

set_option linter.unusedSectionVars false
set_option linter.unusedVariables false

namespace Mealpy
open Spec

variable {d : Nat} {K : Type} [Num K] {c : Cfg d K} {Er : Err → Prop}

namespace DevGSKA

theorem wokAny (hE : c.E.Lawful) (hP : c.P.Lawful) (hc : Accepted c 5) (p : Params K) :
    (algo p : Algo c Unit Unit).WOk (only [.value, .index]) (Inv.std c Unit JT) JT JT c.popSize c.popSize 0 0 c.popSize c.popSize := by
  have hv : only [.value, .index] .value := by simp [only]
  have hx : only [.value, .index] .index := by simp [only]
  wplainalg hE hP hc evolve
  refine WT.greedyLoop hE (fun m h => h) fun s i hs hl hi => ?_
  unfold share
  dgo

end DevGSKA

namespace OriginalGSKA

theorem wokAny (hE : c.E.Lawful) (hP : c.P.Lawful) (hc : Accepted c 5) (p : Params K) :
    (algo p : Algo c Unit Unit).WOk (only [.value, .index]) (Inv.std c Unit JT) JT JT c.popSize c.popSize 0 0 c.popSize c.popSize := by
  have hv : only [.value, .index] .value := by simp [only]
  have hx : only [.value, .index] .index := by simp [only]
  wplainalg hE hP hc evolve
  refine WT.greedyLoop hE (fun m h => h) fun s i hs hl hi => ?_
  unfold share senior
  dgo

end OriginalGSKA

namespace OriginalSHO

theorem wt_trials_tol (hP : c.P.Lawful) : ∀ (n N : Nat), WT Er (Inv.std c Unit JT) 0 n (trials n N : M c Unit Unit Nat) (fun _ => True)
  | 0, N => WT.pure trivial
  | n + 1, N => by
    unfold trials
    refine WT.bind0 WT.get fun s hs => WT.bind0 (WT.draw DT.normalVec) fun z _ => WT.bind0 (WT.draw DT.uniformVec') fun u _ => ?_
    refine WT.bind0 (WT.draw (DT.correct hP)) fun pos hpos => ?_
    refine WT.weaken (lo := 1) (hi := n + 1) ?_ (by omega) (by omega)
    refine WT.agentOf_std (by assumption) (by dgo) (by omega) fun a ha => ?_
    refine WT.ite (fun _ => WT.weaken (WT.pure trivial) (by omega) (by omega)) fun _ => ?_
    exact WT.weaken (wt_trials_tol hP n (N + 1)) (by omega) (by omega)

theorem wokAny (hE : c.E.Lawful) (hP : c.P.Lawful) (hc : Accepted c 5) (p : Params K) :
    (algo p : Algo c Unit Unit).WOk (only [.value]) (Inv.std c Unit JT) JT JT c.popSize c.popSize 0 0 (c.popSize * (0 + 1)) (c.popSize * (p.nTrials + 1)) := by
  have hv : only [.value] .value := by simp [only]
  wplainalg hE hP hc evolve
  refine WT.greedyLoopM hE (fun _ h => h) fun i hi => ?_
  unfold move
  refine WT.bind0 WT.get fun s hs => ?_
  have hlen : s.pop.length = c.popSize := hs.len
  refine WT.bind0 (WT.draw DT.uniformVec') fun u _ => WT.bind0 (WT.draw DT.uniformVec') fun v _ => WT.bind0 (WT.draw DT.random') fun r _ => ?_
  refine WT.ite (fun _ => WT.weaken (lo := 0) (hi := 0) ?_ (by omega) (by omega)) fun _ => ?_
  · refine WT.bind0 (WT.draw (DT.nth_mem (by omega))) fun x _ => WT.bind0 (WT.draw (DT.correct hP)) fun pos hpos => ?_
    exact WT.pure (Inv.std_mk hpos)
  · refine WT.bindS (wt_trials_tol hP p.nTrials 1) (by omega) fun N hN => ?_
    refine WT.weaken (lo := 0) (hi := 0) ?_ (by omega) (by omega)
    refine WT.bind0 (WT.draw (DT.choice_err hE hv)) ?_
    rintro is ⟨h1, h2, -⟩
    refine WT.bind0 (WT.draw (DT.repMT fun i hi => ?_)) fun ps _ => WT.bind0 (WT.draw (DT.correct hP)) fun pos hpos => WT.pure (Inv.std_mk hpos)
    refine DT.bind (DT.nth_mem (by omega)) fun i hi => DT.bind (DT.nth_mem (by have := h2 i hi; omega)) fun y _ => DT.pure trivial

end OriginalSHO

namespace ImprovedNMRA

theorem wokAny (hE : c.E.Lawful) (hP : c.P.Lawful) (hc : Accepted c 5) (p : Params K) :
    (algo p : Algo c Unit Unit).WOk (only [.value]) (Inv.std c Unit JT) JT JT c.popSize c.popSize 0 0 (c.popSize * 2) (c.popSize * 2) := by
  have hv : only [.value] .value := by simp [only]
  wplainalg hE hP hc evolve
  refine WT.greedyTwice hE (fun m h => h) fun s i hs hl hi => ?_
  have h5 : c.popSize / 5 ≤ c.popSize := Nat.div_le_self _ _
  unfold move
  refine DT.bind (DT.nth_mem (by omega)) fun x _ => DT.bind DT.uniform' fun u _ => DT.bind (R := fun _ => True) ?_ fun y _ => ?_
  · refine DT.ite (fun _ => DT.ite (fun _ => ?_) fun _ => ?_) fun _ => DT.ite (fun _ => ?_) fun _ => ?_
    · dgo
    · dgo
    · dgo
    · unfold cross
      refine DT.bind (DT.index_tol hE hv) fun st _ => ?_
      dgo
  · dgo

end ImprovedNMRA

namespace OriginalINFO

theorem wokAny (hE : c.E.Lawful) (hP : c.P.Lawful) (hc : Accepted c 5) :
    (algo : Algo c Unit Unit).WOk (only [.index]) (Inv.std c Unit JT) JT JT c.popSize c.popSize 0 0 c.popSize c.popSize := by
  have hx : only [.index] .index := by simp [only]
  wplainalg hE hP hc evolve
  refine WT.bind0 WT.get fun s0 hs0 => WT.bind0 (WT.draw (DT.integers hE (by omega))) fun k hk => ?_
  have h1 : s0.pop.length = c.popSize := hs0.len
  refine WT.bind0 (WT.draw (DT.nth_tol hx)) fun better _ => WT.bind0 (WT.draw (DT.nthI_tol hx)) fun worst _ => ?_
  refine WT.bindS (WT.buildEval hE fun s i hs hi => ?_) le_rfl fun new hn => WT.weaken (WT.setPop hn.1 hn.2) (by omega) (by omega)
  have hl : s.pop.length = c.popSize := hs.len
  unfold move
  dgo

end OriginalINFO

namespace OriginalCSO

theorem dt_pickCat_tol (hE : c.E.Lawful) (hv : Er .value) {p : Params K} (h2 : 2 ≤ p.smp)
    {cats : List (Agent d K (Att d K))} (hl : cats.length = p.smp) : DT Er (pickCat p cats : D c _) (fun a => a ∈ cats) := by
  unfold pickCat
  refine DT.ite (fun _ => DT.mono (DT.bestAgent' hE (by omega)) fun _ h => h.1) fun _ => DT.ite (fun h1 => ?_) fun _ => DT.ite (fun _ => ?_) fun _ => ?_
  · refine DT.bind (DT.choice_err hE hv) fun is his => ?_
    refine DT.bind (DT.repM (Q := fun a => a ∈ cats) fun k hk => DT.bind (DT.nth_mem hk) fun i hi => DT.nth_mem (by have := his.2.1 i hi; omega)) fun four hf => ?_
    exact DT.mono (DT.bestAgent' hE (by rw [hf.1, his.1]; omega)) fun a h => hf.2 a h.1
  · exact DT.bind (DT.rouletteIdx hE (by simp; omega)) fun i hi => DT.nth_mem (by simpa using hi)
  · exact DT.bind (DT.choice1 hE (by omega)) fun i hi => DT.nth_mem hi

theorem wt_seeking_tol (hE : c.E.Lawful) (hP : c.P.Lawful) (hd : 0 < d) (hv : Er .value) {p : Params K} (h2 : 2 ≤ p.smp)
    {cat : Agent d K (Att d K)} (hcat : CF c cat) :
    WT Er (Inv.std c (Att d K) JT) 0 (2 * p.smp) (seeking p cat : M c (Att d K) Unit _) (Feas c) := by
  unfold seeking
  refine WT.generatePopulation_std hE hP (fun x hx => dt_mkExt) (by omega) fun gen hg => WT.ite (fun _ => ?_) fun _ => ?_
  · refine WT.bind0 (WT.draw (DT.repM fun _ _ => dt_clone hE hP hd)) fun pend hp => WT.ite (fun _ => ?_) fun _ => ?_
    · refine WT.bindS (WT.evalAll hE ?_) (by simp; omega) fun cats hc => ?_
      · intro q hq
        rcases List.mem_cons.1 hq with rfl | g
        · exact Inv.std_mk hcat.2
        · exact Inv.std_mk (hp.2 q g)
      · refine WT.bind0 (WT.draw (dt_pickCat_tol hE hv h2 (by rw [hc.1]; simp; omega))) fun a ha => WT.weaken (WT.pure (hc.2 a ha).2) (by omega) (by omega)
    · refine WT.bindS (WT.evalAll hE fun q hq => Inv.std_mk (hp.2 q hq)) (by omega) fun new hn => ?_
      refine WT.bind0 (WT.draw (dt_pickCat_tol hE hv h2 (by simp [hn.1, hp.1]; omega))) fun a ha => WT.weaken (WT.pure ?_) (by omega) (by omega)
      rcases List.mem_cons.1 ha with rfl | g
      · exact hcat.2
      · exact (hn.2 a g).2
  · refine WT.bind0 (WT.draw (DT.repM (Q := fun q => Feas c q.1) fun i hi => DT.bind (DT.nth_mem (by omega)) fun a _ => dt_clone hE hP hd)) fun pend hp => ?_
    refine WT.bindS (WT.evalAll hE fun q hq => Inv.std_mk (hp.2 q hq)) (by omega) fun cats hc => ?_
    exact WT.bind0 (WT.draw (dt_pickCat_tol hE hv h2 (by rw [hc.1, hp.1]))) fun a ha => WT.weaken (WT.pure (hc.2 a ha).2) (by omega) (by omega)

theorem wokAny (hE : c.E.Lawful) (hP : c.P.Lawful) (hc : Accepted c 5) (p : Params K) (hd : 0 < d) (h2 : 2 ≤ p.smp) :
    (algo p : Algo c (Att d K) Unit).WOk (only [.value]) (Inv.std c (Att d K) JT) JT JT c.popSize c.popSize 0 0 c.popSize (c.popSize * (2 * p.smp + 1)) := by
  have hv : only [.value] .value := by simp [only]
  wfullalg hE hP hc evolve
  refine WT.bindS (WT.buildEvalM (lo := 0) (hi := 2 * p.smp) hE fun i hi => ?_) le_rfl fun new hn => WT.weaken (WT.setPop hn.1 hn.2) (by omega) (by omega)
  unfold step
  refine WT.bind0 WT.get fun s hs => ?_
  have hl : s.pop.length = c.popSize := hs.len
  refine WT.bind0 (WT.draw (DT.nth_mem (by omega))) fun x hx => WT.bindS (R := Feas c) (h1 := 2 * p.smp) (l1 := 0) (WT.ite (fun _ => ?_) fun _ => wt_seeking_tol hE hP hd hv h2 (hs.pop x hx)) (by omega) fun pos hpos => ?_
  · exact WT.bind0 (WT.draw DT.uniform') fun u _ => WT.weaken (WT.draw (DT.correct hP)) (by omega) (by omega)
  · exact WT.bind0 (WT.draw DT.uniform') fun v _ => WT.weaken (WT.pure (Inv.std_mk hpos)) (by omega) (by omega)

end OriginalCSO

namespace OriginalDOA

theorem wokAny (hE : c.E.Lawful) (hP : c.P.Lawful) (hc : Accepted c 5) (hd : 0 < d) :
    (algo : Algo c Unit Unit).WOk (only [.value, .index]) (Inv.std c Unit JT) JT JT c.popSize c.popSize 0 0 c.popSize c.popSize := by
  have hv : only [.value, .index] .value := by simp [only]
  have hx : only [.value, .index] .index := by simp [only]
  wplainalg hE hP hc evolve
  refine WT.bind0 WT.get fun s hs => ?_
  have hl : s.pop.length = c.popSize := hs.len
  refine WT.ite (fun _ => ?_) fun _ => ?_
  · refine WT.bind0 (WT.draw (dt_explore hE hP hd hl (by omega))) fun pend hp => ?_
    exact WT.bindS (WT.evalAll hE fun q hq => Inv.std_mk (hp.2 q hq)) (by omega) fun new hn => WT.weaken (WT.setPop (hn.1.trans hp.1) hn.2) (by omega) (by omega)
  · refine WT.bind0 (WT.draw (DT.repM (Q := fun q => Feas c q.1) fun i hi => ?_)) fun pend hp => ?_
    · unfold exploit
      refine DT.bind (DT.integers_tol hE hv) fun k _ => DT.bind (DT.choice_err hE hv) fun is _ => ?_
      refine DT.bind (DT.iterT fun k pos hk => DT.bind (DT.nth_mem hk) fun j _ => DT.bind DT.random' fun r _ => DT.ite (fun _ => ?_) fun _ => DT.throw hx) fun pos _ => DT.bind (DT.correct hP) fun pos hp => DT.pure hp
      exact DT.bind (dt_mend hE hl (by omega)) fun v _ => DT.pure trivial
    · exact WT.bindS (WT.evalAll hE fun q hq => Inv.std_mk (hp.2 q hq)) (by omega) fun new hn => WT.weaken (WT.setPop (hn.1.trans hp.1) hn.2) (by omega) (by omega)

end OriginalDOA

namespace OriginalMA

theorem wokAny (hE : c.E.Lawful) (hP : c.P.Lawful) (hc : Accepted c 5) (p : Params K) :
    (algo p : Algo c (List Bool) Unit).WOk (only [.index]) (Inv.std c (List Bool) JT) JT JT c.popSize c.popSize 0 0 c.popSize (c.popSize + c.popSize * p.maxLocalGens) := by
  have hx : only [.index] .index := by simp [only]
  wfullalg hE hP hc evolve
  refine WT.bind0 WT.get fun s hs => ?_
  have hl : s.pop.length = c.popSize := hs.len
  refine WT.bind0 (WT.draw (DT.repM (Q := fun _ => True) fun k hk => ?_)) fun children hch => ?_
  · refine DT.bind (DT.kwayIdx hE (by omega) (by simp [KWay.size]) (by simp [KWay.size]; omega)) fun is his => DT.bind (DT.nth_mem (by rw [his.1]; simp [KWay.size])) fun i hi => ?_
    exact DT.mono (DT.nth_mem (his.2 i hi)) fun _ _ => trivial
  · refine WT.bindS (WT.buildEval hE fun s i hs hi => ?_) (by omega) fun new hn => ?_
    · unfold child
      refine DT.bind (R := fun _ => True) (DT.ite (fun h => DT.mono (DT.nth_tol hx) fun _ _ => trivial) fun h => DT.mono (DT.nth_tol hx) fun _ _ => trivial) fun a0 _ => ?_
      refine DT.bind (R := fun _ => True) (DT.ite (fun h => DT.mono (DT.nth_tol hx) fun _ _ => trivial) fun h => DT.pure trivial) fun a _ => ?_
      refine DT.bind (DT.nth_tol hx) fun x _ => DT.bind dt_crossover fun l _ => DT.bind dt_pointMutation fun l2 _ => DT.mono (dt_express hP) fun _ h => Inv.std_mk h
    refine WT.bind0 (WT.setPop hn.1 hn.2) fun _ _ => WT.iterU 0 p.maxLocalGens (by omega) (by omega) fun i hi => ?_
    refine WT.bind0 (WT.draw DT.random') fun u _ => WT.ite (fun _ => ?_) fun _ => WT.weaken (WT.pure trivial) (by omega) (by omega)
    refine WT.bind0 (WT.draw (DT.nth_mem (by omega))) fun a ha => WT.bindS (WT.lax (wt_climb hE hP (hn.2 a ha))) le_rfl fun b hb => ?_
    exact WT.weaken (WT.setAt (by wsz) (Inv.std_ag hb)) (by omega) (by omega)

end OriginalMA

namespace DevEFO

theorem wokAny (hE : c.E.Lawful) (hP : c.P.Lawful) (hc : Accepted c 5) (p : Params K) :
    (algo p : Algo c Unit Unit).WOk (only [.value, .index]) (Inv.std c Unit JT) JT JT c.popSize c.popSize 0 0 c.popSize c.popSize := by
  have hv : only [.value, .index] .value := by simp [only]
  have hx : only [.value, .index] .index := by simp [only]
  wplainalg hE hP hc evolve
  refine WT.greedyLoop hE (fun m h => h) fun s i hs hl hi => ?_
  unfold move
  dgo

end DevEFO

namespace OriginalEFO

theorem dt_arrays_tol (hE : c.E.Lawful) {p : DevEFO.Params K} (hv : Er .value) : DT Er (arrays p : D c _) (fun y : Vars d K => y.ri = 0) := by
  unfold arrays indexes
  have hi : ∀ lo hi : Int, DT Er (vecM (fun _ => repM c.epoch (fun _ => do let i ← integers lo hi; pure i.toNat)) : D c (Fin d → List Nat)) (fun _ => True) := fun lo hi =>
    DT.vecM_true fun j => DT.mono (DT.repMT fun i _ => DT.bind (DT.integers_tol hE hv) fun k _ => DT.pure trivial) fun _ _ => trivial
  refine DT.bind (hi _ _) fun i1 _ => DT.bind (hi _ _) fun i2 _ => DT.bind (hi _ _) fun i3 _ => ?_
  refine DT.bind (DT.vecM_true fun j => DT.mono (DT.repMT fun i hi => DT.uniform') fun _ _ => trivial) fun ps h4 => ?_
  refine DT.bind (DT.repMT fun i hi => DT.uniform') fun f h5 => DT.bind (DT.repMT fun i hi => DT.uniform') fun rp h6 => ?_
  exact DT.bind (DT.repMT fun i hi => DT.uniform') fun r h7 => DT.pure rfl

theorem wokAny (hE : c.E.Lawful) (hP : c.P.Lawful) (hc : Accepted c 5) (p : DevEFO.Params K) :
    (algo p : Algo c Unit (Vars d K)).WOk (only [.value, .index]) (Inv.std c Unit (fun y => y.ri = 0)) JT (fun y => y.ri = 0) c.popSize c.popSize 0 0 1 1 := by
  have hv : only [.value, .index] .value := by simp [only]
  have hx : only [.value, .index] .index := by simp [only]
  have hpop := hc.pop
  unfold algo
  refine Algo.custom_wok (J := fun y : Vars d K => y.ri = 0) (J0 := JT) (by omega) (fun x hx => by dgo) (by dgo) (by omega) (fun y hy => ?_) (fun y pop hy hl hp => ?_) (fun ep hep1 hep2 => ?_)
  · unfold initialization startPop
    exact BT.bindS (BT.generatePopulation hE hP fun x _ => DT.pure trivial) (by omega) fun pop hpop =>
      BT.bindS (BT.liftD (dt_arrays_tol hE hv)) (by omega) fun y hy => BT.weaken (BT.pure ⟨hpop.1, hpop.2, hy⟩) (by omega) (by omega)
  · unfold initialization startPop
    rw [pure_bind]
    exact BT.bindS (BT.liftD (dt_arrays_tol hE hv)) (by omega) fun y hy => BT.weaken (BT.pure ⟨hl, hp, hy⟩) (by omega) (by omega)
  unfold evolve
  refine WT.bind0 WT.get fun s hs => WT.bind0 (R := Feas c) (WT.draw ?_) fun x hx' => ?_
  · unfold move
    dgo
  refine WT.bind0 (WT.draw (DT.nth_tol hx)) fun rp _ => WT.bind0 (R := fun _ => True) (WT.ite (fun _ => WT.modExt fun y hy => rfl) fun _ => WT.pure trivial) fun _ _ => ?_
  refine WT.agentOf_std hx' (DT.pure trivial) (by omega) fun a ha => WT.weaken (WT.reshape fun pop hl hp => ⟨?_, fun b hb => ?_⟩) (by omega) (by omega)
  · exact (List.length_set ..).trans hl
  · rcases List.mem_or_eq_of_mem_set hb with g | g
    · exact hp b g
    · rw [g]; exact Inv.std_ag ha

end OriginalEFO

namespace OriginalFLA

theorem dt_plan_tol {p : Params K} {tf : K} : DT Er (plan p tf : D c _) (fun _ => True) := by
  unfold plan
  dgo

theorem dt_molecule_tol (hE : c.E.Lawful) (hP : c.P.Lawful) (hx : Er .index) {p : Params K} {k : Ctx d K} {pl : Plan K} {s : St c Unit Unit} {i : Nat} :
    DT Er (molecule p k pl s i : D c _) (Inv.std c Unit (JT : Unit → Prop)).Mk := by
  unfold molecule
  refine DT.bind (R := fun _ => True) ?_ fun pos _ => DT.bind (DT.correct hP) fun pos hp => DT.pure (Inv.std_mk hp)
  unfold position receive cross stay settle
  match pl with
  | .diffuse true m dof => dgo
  | .diffuse false m dof => dgo
  | .equilibrium => dgo
  | .steady => dgo

theorem wokAny (hE : c.E.Lawful) (hP : c.P.Lawful) (hc : Accepted c 5) (p : Params K) :
    (algo p : Algo c Unit Unit).WOk (only [.index]) (Inv.std c Unit JT) JT JT c.popSize c.popSize 0 0 c.popSize c.popSize := by
  have hx : only [.index] .index := by simp [only]
  wplainalg hE hP hc evolve
  refine WT.bind0 WT.get fun s hs => ?_
  have hl : s.pop.length = c.popSize := hs.len
  refine WT.bind0 (WT.draw (DT.lax (dt_context hE (by omega) hl))) fun k hkk => WT.bind0 (WT.draw dt_plan_tol) fun pl hpl => ?_
  refine WT.bindS (WT.buildEval hE fun s i _ hi => dt_molecule_tol hE hP hx) (by omega) fun new hnew => WT.weaken (WT.reshape fun pop hl hp => ?_) (by omega) (by omega)
  have hlen : new.length = c.popSize := hnew.1
  have hl' : pop.length = c.popSize := hl
  refine ⟨?_, zipBetter_all (p := (Inv.std c Unit (JT : Unit → Prop)).Ag) (fun x hx => hnew.2 x hx) (fun x hx => hp x hx)⟩
  exact (zipBetter_length ..).trans (by omega)

end OriginalFLA

namespace OriginalSRSR

theorem wokAny (hE : c.E.Lawful) (hP : c.P.Lawful) (hc : Accepted c 5) :
    (algo : Algo c K K).WOk (only [.value]) (Inv.std c K JT) JT JT c.popSize c.popSize 0 0 (c.popSize + c.popSize + 5) (c.popSize + c.popSize + 5) := by
  have hv : only [.value] .value := by simp [only]
  have hpop := hc.pop
  unfold algo
  refine Algo.full_wok hE hP (by omega) (fun x hx => DT.pure trivial) (J := JT) (by dgo) (fun ep hep1 hep2 => ?_)
  unfold evolve
  refine WT.bind0 (WT.draw DT.uniform') fun _ _ => WT.bind0 WT.get fun s hs => ?_
  have hl : s.pop.length = c.popSize := hs.len
  refine WT.bind0 (WT.draw (DT.repM (Q := fun q => Feas c q.1) fun i hi => ?_)) fun ps hps => ?_
  · unfold walk
    refine DT.bind (DT.nth_mem (by omega)) fun m _ => DT.bind (DT.nth_mem (by omega)) fun x _ => DT.bind DT.uniform' fun u hu => DT.bind DT.uniform' fun v hv' => ?_
    exact DT.bind (DT.normalArr_tol hv) fun y _ => DT.bind (DT.correct hP) fun pos hp => DT.pure hp
  have hp1 := hps.1
  refine WT.bindS (WT.buildEval hE fun s i hs hi => ?_) (by omega) fun new hnew => ?_
  · exact DT.bind (DT.nth_mem (by omega)) fun q hq => DT.pure (Inv.std_mk (hps.2 q hq))
  have keepOk : ∀ {pop new : List (Agent d K K)}, pop.length = c.popSize → new.length = c.popSize → (∀ a ∈ pop, (Inv.std c K (JT : K → Prop)).Ag a) →
      (∀ a ∈ new, (Inv.std c K (JT : K → Prop)).Ag a) → WT (only [.value]) (Inv.std c K JT) 0 0 (setPop (List.zipWith (keep c.P.mm) pop new) : M c K K Unit) (fun _ => True) := by
    intro pop new h1 h2 h3 h4
    refine WT.setPop ?_ fun a ha => ?_
    · change (List.zipWith (keep c.P.mm) pop new).length = c.popSize
      rw [List.length_zipWith, h1, h2, Nat.min_self]
    · obtain ⟨x, hx, y, hy, rfl⟩ := mem_zipWith' ha
      exact Inv.std_ag (keep_cf ⟨(h3 x hx).1, (h3 x hx).2⟩ ⟨(h4 y hy).1, (h4 y hy).2⟩)
  refine WT.bind0 (keepOk hl hnew.1 hs.pop hnew.2) fun _ _ => WT.bind0 (R := fun _ => True) (WT.draw ?_) fun sif hsif => WT.bind0 (WT.modExt fun y _ => trivial) fun _ _ => ?_
  · unfold factor
    refine DT.bind DT.uniform' fun u hu => DT.bind (DT.nth_mem ?_) fun b hb => DT.ite (fun _ => DT.bind DT.uniform' fun v hv => DT.pure trivial) fun _ => DT.pure trivial
    have := argmaxL_lt (l := s.pop.map (fun a => a.fit - a.ext)) (by rw [List.length_map]; omega)
    rw [List.length_map] at this
    rw [List.length_map]
    omega
  refine WT.bind0 WT.get fun s2 hs2 => WT.bindS (WT.buildEval hE fun s i hs hi => DT.mono (DT.lax (dt_roam hP hs.len hi)) fun q hq => Inv.std_mk hq) (by omega) fun new2 hnew2 => ?_
  refine WT.bind0 (keepOk hs2.len hnew2.1 hs2.pop hnew2.2) fun _ _ => WT.bind0 (WT.popAt (by wsz)) fun m _ => WT.bind0 (WT.draw (DT.lax (dt_workers hE))) fun ws hws => ?_
  refine WT.bindS (WT.buildEval hE fun s i hs hi => ?_) (by omega) fun wa hwa => WT.weaken (lo := 0) (hi := 0) ?_ (by omega) (by omega)
  · exact DT.bind (DT.nth_mem (by omega)) fun w _ => DT.bind (DT.correct hP) fun pos hp => DT.pure (Inv.std_mk hp)
  unfold place
  have hwl := hwa.1
  refine WT.iterU 0 0 (by omega) (by omega) fun i hi => WT.bind0 (WT.draw (DT.nth_mem (by omega))) fun w hw' => WT.bind0 (WT.popAt (by wsz)) fun x _ => WT.ite (fun _ => ?_) fun _ => WT.pure trivial
  exact WT.bind0 (WT.popAt (by wsz)) fun old _ => WT.setAt (by wsz) (Inv.std_ag ⟨(hwa.2 w hw').1, (hwa.2 w hw').2⟩)

end OriginalSRSR

namespace OriginalESO

theorem wokAny (hE : c.E.Lawful) (hP : c.P.Lawful) (hc : Accepted c 5) :
    (algo : Algo c Unit Unit).WOk (only [.value]) (Inv.std c Unit JT) JT JT c.popSize c.popSize 0 0 (c.popSize * 2) (c.popSize * 3) := by
  have hv : only [.value] .value := by simp [only]
  wplainalg hE hP hc evolve
  refine WT.bind0 WT.get fun s hs => ?_
  refine WT.bind0 (R := fun _ => True) (WT.draw ?_) fun ion _ => ?_
  · unfold ionized
    split
    · exact DT.pure trivial
    · exact DT.ite (fun _ => DT.throw hv) fun _ => DT.pure trivial
  refine WT.bindS (WT.iterL 2 3 (CF c) le_rfl le_rfl fun i l hi hl hcf => ?_) (by omega) fun new hn => ?_
  · refine WT.bindS (WT.lax (wt_first hE hP)) (by omega) fun a ha => WT.bind0 (WT.draw (dt_second hP)) fun pos hp => ?_
    refine WT.agentOf_std hp (DT.pure trivial) (by omega) fun b hb => WT.weaken (WT.pure ⟨by simp [hl], fun x hx => ?_⟩) (by omega) (by omega)
    rcases List.mem_append.1 hx with h | h
    · exact hcf x h
    · rw [List.mem_singleton.1 h]; split
      · exact hb
      · exact ha
  · exact WT.weaken (WT.setPop (I := Inv.std c Unit JT) hn.1 hn.2) (by omega) (by omega)

end OriginalESO
end Mealpy
