import Verif.Alg.Kit22
import Verif.Alg.Simple6
import Verif.Alg.Simple13
import Verif.Alg.Simple16
import Verif.Alg.Simple17
import Verif.Alg.Kit16

/-! # More algorithms on the settings their other lines exclude -/

set_option linter.unusedSectionVars false
set_option linter.unusedVariables false

namespace Mealpy
open Spec

variable {d : Nat} {K : Type} [Num K] {c : Cfg d K} {Er : Err → Prop}

theorem BT.lax {α : Type} {lo hi : Nat} {m : B c α} {Q : α → Prop} (h : BT noErr lo hi m Q) : BT Er lo hi m Q := fun s => Wp.lax (h s)

namespace OriginalCDDO

theorem wokAny (hE : c.E.Lawful) (hP : c.P.Lawful) (hc : Accepted c 5) (p : Params K) (hd : 0 < d) (hp : 1 ≤ p.pattern ∧ p.pattern ≤ c.popSize) :
    (algo p : Algo c Unit (OriginalCDDO.Vars d K)).WOk (only [.value]) (Inv.std c Unit (OriginalCDDO.Sized c)) JT JT c.popSize c.popSize 0 0 c.popSize c.popSize := by
  have hv : only [.value] .value := by simp [only]
  have hpop := hc.pop
  unfold algo
  refine Algo.pre_wok (J := (OriginalCDDO.Sized c)) hE hP (by omega) (fun x hx => by dgo) (by unfold Vars.init; dgo) (by exact fun s hs => DT.lax (dt_before hE hd hs)) (fun ep hep1 hep2 => ?_)
  unfold evolve
  refine WT.bind0 WT.get fun s hs => ?_
  have hlen : s.pop.length = c.popSize := hs.len
  obtain ⟨hy1, hy2⟩ : OriginalCDDO.Sized c s.ext := hs.ext
  refine WT.bind0 (WT.draw (DT.bestAgents hE)) fun pat hpat => ?_
  have hpl := hpat.1
  refine WT.bind0 (R := fun q => q.1.length = c.popSize ∧ ∀ z ∈ q.1, Feas c z.1) (WT.draw ?_) ?_
  · unfold strokes
    refine DT.iter (fun i (q : List (Vec d K × Unit) × K × K) => q.1.length = i ∧ ∀ z ∈ q.1, Feas c z.1) _ (by simp) fun i q hi hq => ?_
    refine DT.bind (R := fun q => Feas c q.1) ?_ ?_
    · unfold stroke
      refine DT.bind (DT.integers_tol hE hv) fun hp _ => DT.bind (DT.index hE hd) fun pp _ => DT.bind (DT.nth_mem (by omega)) fun x _ => ?_
      refine DT.bind (DT.nth_mem (by omega)) fun loc _ => DT.bind (DT.nth_mem (by omega)) fun gr _ => ?_
      refine DT.ite (fun _ => ?_) fun _ => DT.ite (fun _ => ?_) fun _ => ?_
      · refine DT.bind DT.randomVec fun r1 _ => DT.bind DT.randomVec fun r2 _ => ?_
        refine DT.bind (DT.integers hE (by omega)) fun lr _ => DT.bind (DT.integers hE (by omega)) fun sr _ => ?_
        exact DT.bind (DT.correct hP) fun pos h => DT.pure h
      · refine DT.bind (DT.index hE (by omega)) fun k hk => DT.bind (DT.nth_mem (by omega)) fun y _ => ?_
        refine DT.bind (DT.integers hE (by omega)) fun lr _ => DT.bind (DT.integers hE (by omega)) fun sr _ => ?_
        exact DT.bind (DT.correct hP) fun pos h => DT.pure h
      · exact DT.bind (DT.correct hP) fun pos h => DT.pure h
    · rintro ⟨pos, r⟩ hpos
      refine DT.pure ⟨by simp [hq.1], fun z hz => ?_⟩
      rcases List.mem_append.1 hz with h | h
      · exact hq.2 z h
      · rw [List.mem_singleton.1 h]; exact hpos
  · rintro ⟨pend, lr, sr⟩ ⟨hl, hpd⟩
    have hl' : pend.length = c.popSize := hl
    refine WT.bindS (WT.evalAll hE fun q hq => Inv.std_mk (hpd q hq)) (by omega) fun new hn => ?_
    have hnl := hn.1
    refine WT.bind0 (WT.setPop (by show new.length = c.popSize; omega) hn.2) fun _ _ => ?_
    refine WT.weaken (WT.modExt fun y hy => ⟨?_, hy.2⟩) (by omega) (by omega)
    rw [zipGreedy_length, hy.1, hn.1, hl']; omega

end OriginalCDDO

namespace CleverBookBeesA

theorem wokAny (hE : c.E.Lawful) (hP : c.P.Lawful) (hc : Accepted c 5) (p : Params K) (h1 : 1 ≤ p.elites) (h2 : 1 ≤ p.others) :
    (algo p : Algo c Unit Unit).WOk (only [.value]) (Inv.std c Unit JT) JT JT c.popSize c.popSize 0 0 c.popSize (c.popSize * p.most) := by
  have hv : only [.value] .value := by simp [only]
  have hscout : ∀ idx, idx < c.popSize → WT (only [.value]) (Inv.std c Unit JT) 1 p.most (scout p idx : M c Unit Unit _) (fun a => CF c a) := by
    intro idx hi
    unfold scout
    refine WT.ite (fun _ => WT.bind0 (WT.popAt (by wsz)) fun parent _ => ?_) fun _ => ?_
    · generalize hk : (if idx < p.eliteSites then p.elites else p.others) = k
      have hk1 : 1 ≤ k := by rw [← hk]; split <;> assumption
      have hk2 : k ≤ p.most := by rw [← hk]; unfold Params.most; split <;> omega
      refine WT.bindS (WT.buildEval hE fun s i hs hi => ?_) hk2 fun near hn => ?_
      · unfold neighbour
        exact DT.bind (DT.integers_tol hE hv) fun t _ => DT.bind DT.uniform' fun u _ => DT.bind DT.uniform' fun v _ =>
          DT.bind (DT.correct hP) fun pos hp => DT.pure (Inv.std_mk hp)
      · exact WT.weaken (WT.draw (DT.mono (DT.bestAgent' hE (by have := hn.1; omega)) fun v hv => hn.2 v hv.1)) (by omega) (by omega)
    · exact WT.weaken (WT.mono (WT.generateAgent hP (Inv.std_box fun x hx => DT.pure trivial)) fun a ha => ha) le_rfl (le_max_left _ _)
  wplainalg hE hP hc evolve
  refine WT.ite (fun _ => ?_) fun _ => ?_
  · refine WT.bindS (l1 := c.popSize * 1) (h1 := c.popSize * p.most) (WT.iter (lo := 1) (hi := p.most) (fun i (l : List (Agent d K Unit)) => l.length = i ∧ ∀ a ∈ l, CF c a) c.popSize (by simp) fun i l hi hl => ?_) (by omega) fun new hn => WT.weaken (WT.selectGreedy (fun n h => (show n = c.popSize from h).trans hn.1.symm) fun a ha => Inv.std_ag (hn.2 a ha)) (by omega) (by omega)
    refine WT.bindS (hscout i hi) le_rfl fun a ha => WT.weaken (WT.pure ⟨by simp [hl.1], fun b hb => ?_⟩) (by omega) (by omega)
    rcases List.mem_append.1 hb with h | h
    · exact hl.2 b h
    · rw [List.mem_singleton.1 h]; exact ha
  · refine WT.weaken (WT.iterU 1 p.most le_rfl le_rfl fun i hi => ?_) (by omega) le_rfl
    refine WT.bindS (hscout i hi) le_rfl fun a ha => WT.weaken (lo := 0) (hi := 0) ?_ (by omega) (by omega)
    refine WT.bind0 (WT.popAt (by wsz)) fun old ho => WT.setAt (by wsz) ?_
    rcases (getBetterAgent_cases a old c.P.mm).1 with h | h <;> rw [h]
    · exact Inv.std_ag ha
    · exact ho

end CleverBookBeesA

namespace OriginalCRO

theorem dt_cross_any (hE : c.E.Lawful) (hP : c.P.Lawful) {x y : Vec d K} (hv : Er .value) : DT Er (cross x y : D c _) (fun q => Feas c q.1) := by
  unfold cross
  exact DT.bind (DT.choose2_tol hE hv) fun q _ => DT.bind (DT.correct hP) fun pos hp => DT.pure hp

theorem wokAny (hE : c.E.Lawful) (hP : c.P.Lawful) (hc : Accepted c 5) (p : Params K) (hr : Rates c p) :
    (algo p : Algo c Unit (Reef K)).WOk (only [.value]) (Inv.std c Unit (Ok c)) JT (Ok c) c.popSize c.popSize 0 0 0 c.popSize := by
  have hv : only [.value] .value := by simp [only]
  have hpop := hc.pop
  unfold algo
  refine Algo.custom_wok (J := (Ok c)) (J0 := JT) (by omega) (fun x hx => by dgo) (by dgo) (by omega) (fun y hy => BT.lax (bt_none hE hP hr)) (fun y pop hy hl hp => BT.lax (bt_some hE hr hl hp)) (fun ep hep1 hep2 => ?_)
  unfold evolve
  refine WT.bind0 WT.get fun s hs => WT.bind0 (WT.draw (dt_larvae hE hP (fun _ _ => dt_cross_any hE hP hv) hr hs.len hs.ext)) fun pend hp => ?_
  refine WT.bindS (WT.evalAll hE fun q hq => Inv.std_mk (hp.2 q hq)) (by omega) fun ls hls => WT.bind0 (WT.lax (wt_settle hE (by omega) fun a ha => ?_)) fun _ _ => ?_
  · exact hls.2 a ha
  refine WT.bind0 WT.get fun s hs => WT.bind0 (WT.lax (wt_settle hE (by omega) (bests_mem hE fun a ha => hs.pop a ha))) fun _ _ => ?_
  refine WT.bind0 (WT.draw DT.random') fun u _ => WT.bind0 WT.get fun s hs => WT.bind0 (R := fun _ => True) (WT.ite (fun _ => WT.modExt fun y hy => ok_prey hy) fun _ => WT.pure trivial) fun _ _ => ?_
  exact WT.weaken (WT.modExt fun y hy => ok_decay hy) (by omega) (by omega)

end OriginalCRO

namespace OCRO

open OriginalCRO (Reef Ok Rates)

theorem wokAny (hE : c.E.Lawful) (hP : c.P.Lawful) (hc : Accepted c 5) (p : Params K) (hr : Rates c p.base) :
    (algo p : Algo c Unit (Reef K)).WOk (only [.value]) (Inv.std c Unit (Ok c)) JT (Ok c) c.popSize c.popSize 0 0 0 (c.popSize + c.popSize + c.popSize + c.popSize) := by
  have hv : only [.value] .value := by simp [only]
  have hpop := hc.pop
  unfold algo
  refine Algo.custom_wok (J := (Ok c)) (J0 := JT) (by omega) (fun x hx => by dgo) (by dgo) (by omega) (fun y hy => BT.lax (OriginalCRO.bt_none hE hP hr)) (fun y pop hy hl hp => BT.lax (OriginalCRO.bt_some hE hr hl hp)) (fun ep hep1 hep2 => ?_)
  unfold evolve
  refine WT.bind0 WT.get fun s hs => WT.bind0 (WT.draw (OriginalCRO.dt_larvae hE hP (fun _ _ => OriginalCRO.dt_cross_any hE hP hv) hr hs.len hs.ext)) fun pend hp => ?_
  refine WT.bindS (WT.evalAll hE fun q hq => Inv.std_mk (hp.2 q hq)) (by omega) fun ls hls => WT.bind0 (WT.lax (OriginalCRO.wt_settle hE (by omega) fun a ha => hls.2 a ha)) fun _ _ => ?_
  refine WT.bind0 WT.get fun s hs => ?_
  have hb := OriginalCRO.bests_length hE (p := p.base) hs.ext
  refine WT.bindS (WT.buildEval hE fun s i hs hi => ?_) (by omega) fun near hnear => ?_
  · unfold search
    exact DT.bind DT.uniformVec' fun r _ => DT.bind DT.randomVec fun u _ => DT.bind (DT.correct hP) fun pos hp => DT.pure (Inv.std_mk hp)
  refine WT.bind0 (WT.lax (OriginalCRO.wt_settle hE (by omega) fun a ha => hnear.2 a ha)) fun _ _ => WT.bind0 (WT.draw DT.random') fun u _ => WT.bind0 WT.get fun s hs => ?_
  have hq := prey_length hE (p := p.base) hs.ext
  refine WT.bindS (l1 := 0) (h1 := c.popSize) (R := fun _ => True) (WT.ite (fun _ => WT.weaken (WT.lax (wt_resist hE hP fun i hi => hs.ext.lt i (prey_mem i hi))) le_rfl hq) fun _ => WT.weaken (WT.pure trivial) le_rfl (by omega)) (by omega) fun _ _ => ?_
  refine WT.bind0 (WT.modExt fun y hy => ⟨hy.nodup, hy.lt⟩) fun _ _ => WT.bind0 WT.get fun s hs => WT.bind0 (WT.draw (DT.bestAgent' hE (by rw [hs.len_std]; omega))) fun best _ => ?_
  refine WT.bind0 (R := fun _ => True) (WT.ite (fun _ => WT.modExt fun y hy => ⟨hy.nodup, hy.lt⟩) fun _ => WT.pure trivial) fun _ _ => WT.bind0 WT.get fun s hs => ?_
  exact WT.ite (fun _ => WT.weaken (WT.lax (wt_restart hE hP hr)) (by omega) (by omega)) fun _ => WT.weaken (WT.pure trivial) (by omega) (by omega)

end OCRO

namespace OriginalSHADE

theorem wokAny (hE : c.E.Lawful) (hP : c.P.Lawful) (hc : Accepted c 5) (p : Params K) (hd : 0 < d) :
    (algo p : Algo c Unit (Attr d K)).WOk (only [.value, .index]) (Inv.std c Unit (Sized c)) (Sized c) (Sized c) c.popSize c.popSize 0 0 c.popSize c.popSize := by
  have hv : only [.value, .index] .value := by simp [only]
  have hx : only [.value, .index] .index := by simp [only]
  have hpop := hc.pop
  unfold algo
  refine Algo.full_wok hE hP (by omega) (fun x hx => by dgo) (J := (Sized c)) (by exact DT.pure ⟨by simp, by simp, by show 0 < c.popSize; omega, by show 0 < c.popSize; omega, le_rfl⟩) (fun ep hep1 hep2 => ?_)
  unfold evolve
  refine WT.bind0 (WT.modExt fun y hy => hy) fun _ _ => WT.bind0 WT.get fun s hs => ?_
  refine WT.bind0 (WT.draw (DT.sortedPop hE)) fun sorted hso => ?_
  have hl : s.pop.length = c.popSize := hs.len
  obtain ⟨g1, g2, g3, g4⟩ : Sized c s.ext := hs.ext
  have hal : (s.pop ++ s.ext.archive).length = s.pop.length + s.ext.archive.length := List.length_append
  refine WT.bind0 (WT.draw (buildPending_dt (Q := fun t : Vec d K × K × K => Feas c t.1) fun i hi => ?_)) fun trials htr => ?_
  · unfold trial JADE.cauchyF
    refine DT.bind (DT.index hE (by omega)) fun k hk => ?_
    refine DT.bind (DT.nth_mem (by omega)) fun mcr _ => DT.bind DT.normal fun cr _ => DT.bind (DT.nth_mem (by omega)) fun mf _ => ?_
    refine DT.bind (R := fun _ => True) (by dgo) fun f _ => DT.bind (R := fun _ => True) (by unfold top; exact DT.bind DT.uniform' fun _ _ => DT.pure trivial) fun n hn' => ?_
    refine DT.bind (DT.integers_tol hE hv) fun t _ => DT.bind (DT.nth_tol hx) fun best _ => ?_
    dgo
  have htl := htr.1
  refine WT.bindS (WT.buildEval hE fun s i hs hi => ?_) (by omega) fun new hnew => ?_
  · exact DT.bind (DT.nth_mem (by omega)) fun t ht => DT.pure (Inv.std_mk (htr.2 t ht))
  refine WT.bind0 (WT.compareLoop hnew.1.symm (fun _ h => h) hnew.2 (fun i old y _ hy => record_sized hy) fun _ _ _ _ hy => hy) fun _ _ => ?_
  refine WT.bind0 WT.get fun s hs => WT.bindD (DT.lax (JADE.cut_dt hE)) fun l => ?_
  exact WT.weaken (WT.modExt fun _ h => learn_sized (by omega) h) (by omega) (by omega)

end OriginalSHADE

namespace OriginalSFO

theorem wokAny (hE : c.E.Lawful) (hP : c.P.Lawful) (hc : Accepted c 5) (p : Params K) (hm : c.popSize ≤ size c p.pp) :
    (algo p : Algo c Unit (Sardines d K)).WOk (only [.value]) (Inv.std c Unit (Ok c (size c p.pp))) JT (Ok c (size c p.pp)) (c.popSize + OriginalSFO.size c p.pp) (c.popSize + OriginalSFO.size c p.pp) 0 0 c.popSize (c.popSize + OriginalSFO.size c p.pp + c.popSize) := by
  have hv : only [.value] .value := by simp [only]
  have hpop := hc.pop
  unfold algo
  refine Algo.custom_wok (J := (Ok c (size c p.pp))) (J0 := JT) (by omega) (fun x hx => by dgo) (by dgo) (by omega) (fun y hy => BT.lax (bt_none hE hP)) (fun y pop hy hl hp => BT.lax (bt_some hE hP hl hp)) (fun ep hep1 hep2 => ?_)
  unfold evolve
  refine WT.bind0 WT.get fun s hs => ?_
  have hx : Ok c (size c p.pp) s.ext := hs.ext
  refine WT.bind0 (WT.draw (DT.bestAgent' hE (by rw [hx.1]; omega))) fun sb _ => ?_
  refine WT.bindS (WT.greedyLoopR hE (fun _ h => h) fun s i hs hl hi => DT.mono (DT.lax (dt_fish hP (by omega))) fun p hp => Inv.std_mk hp) (by omega) fun _ _ => ?_
  refine WT.bindS (l1 := 0) (h1 := size c p.pp) (R := fun _ => True) ?_ (by omega) fun _ _ => WT.bind0 (WT.lax (wt_hunt hE hm)) fun sp hsp => ?_
  · unfold sardines
    refine WT.bind0 WT.get fun s hs => WT.ite (fun h => ?_) fun _ => ?_
    · refine WT.bind0 (WT.draw (DT.choice hE (by simp [choiceErr]; omega))) fun sel _ => ?_
      refine WT.weaken (wt_school hE (lo := 0) (by omega) fun a i hi => ?_) (by omega) (by omega)
      unfold low
      refine DT.ite (fun _ => ?_) fun _ => DT.pure ⟨by simp, by simp⟩
      exact DT.bind (DT.choice_err hE hv) fun js _ => DT.bind DT.uniformVec' fun u _ => DT.bind (DT.correct hP) fun x hx => DT.pure ⟨fun y hy => by cases hy; exact hx, by simp⟩
    · exact WT.weaken (wt_school hE (lo := 1) (by omega) fun a i hi => DT.lax (dt_high hP)) (by omega) (by omega)
  exact WT.weaken (WT.lax (wt_refill hE hP (n := c.popSize) hsp.1.1 hsp.1.2 hsp.2)) (by omega) (by omega)

end OriginalSFO

end Mealpy
