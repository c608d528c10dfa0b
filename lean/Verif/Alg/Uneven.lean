import Verif.Alg.Simple10
import Verif.Alg.Simple14
import Verif.Alg.Kit18
import Verif.Alg.Kit21

/-!
# Groups that do not divide the population

`HGSO` and `BSO` cut the population into equal groups and drop the remainder.
-/

set_option linter.unusedSectionVars false
set_option linter.unusedVariables false

namespace Mealpy
open Spec

variable {d : Nat} {K : Type} [Num K] {c : Cfg d K}

/-- the sizes of a population that is cut into `p` equal groups: all of it, or what the groups hold -/
def Grouped (c : Cfg d K) (p n : Nat) : Prop := n = c.popSize ∨ n = p * (c.popSize / p)

theorem Grouped.le {p n : Nat} (h : Grouped c p n) : p * (c.popSize / p) ≤ n := by
  rcases h with h | h
  · rw [h]; exact Nat.mul_div_le _ _
  · omega

theorem Grouped.pos {p n : Nat} (h1 : 1 ≤ p) (h2 : p ≤ c.popSize) (h : Grouped c p n) : 0 < n :=
  lt_of_lt_of_le (Nat.mul_pos (by omega) (Nat.div_pos h2 (by omega))) h.le

theorem Grouped.at {p i j : Nat} (hi : i < p) (hj : j < c.popSize / p) : i * (c.popSize / p) + j < p * (c.popSize / p) := by
  have h1 : (i + 1) * (c.popSize / p) ≤ p * (c.popSize / p) := Nat.mul_le_mul_right _ hi
  rw [Nat.add_mul, Nat.one_mul] at h1
  omega

/-- As `WT.evalChunks`, when some positions are in no chunk. -/
theorem WT.evalChunksLe {X Y : Type} {Er : Err → Prop} {I : Inv c X Y} (hE : c.E.Lawful) {k m : Nat} {pend : List (Vec d K × X)} (hl : k * m ≤ pend.length) (hp : ∀ p ∈ pend, I.Mk p) :
    WT Er I (k * m) (k * m) (Mealpy.evalChunks k m pend : M c X Y _) (fun l => l.length = k * m ∧ ∀ a ∈ l, I.Ag a) := by
  unfold Mealpy.evalChunks
  refine WT.iter (fun i (l : List (Agent d K X)) => l.length = i * m ∧ ∀ a ∈ l, I.Ag a) k (by simp) fun i l hi hl' => ?_
  have hlen : ((pend.drop (i * m)).take m).length = m := by
    have : (i + 1) * m ≤ k * m := Nat.mul_le_mul_right m hi
    rw [List.length_take, List.length_drop]
    rw [Nat.add_mul, Nat.one_mul] at this
    omega
  have h := WT.evalAll (Er := Er) (I := I) hE (pend := (pend.drop (i * m)).take m) fun p hpm => hp p (List.mem_of_mem_drop (List.mem_of_mem_take hpm))
  rw [hlen] at h
  refine WT.bindS h le_rfl fun new hnew => WT.weaken (WT.pure ⟨?_, fun a ha => ?_⟩) (by omega) (by omega)
  · rw [List.length_append, hl'.1, hnew.1, Nat.add_mul, Nat.one_mul]
  · rcases List.mem_append.1 ha with g | g
    · exact hl'.2 a g
    · exact hnew.2 a g

namespace OriginalHGSO

/-- without the condition that `n_clusters` divides `pop_size` -/
theorem wokUneven (hE : c.E.Lawful) (hP : c.P.Lawful) (hc : Accepted c 5) (p : Nat) (h1 : 1 ≤ p) (h2 : p ≤ c.popSize / 5) :
    (algo p : Algo c Unit (Vars K)).WOk noErr (Inv.sized c Unit (Grouped c p) JT) JT JT c.popSize c.popSize 0 0 (p * (c.popSize / p)) (p * (c.popSize / p) + c.popSize) := by
  have hpop := hc.pop
  unfold algo
  refine Algo.std_wok (I := Inv.sized c Unit (Grouped c p) JT) hE hP (by omega) (.inl rfl) (fun n hn => Grouped.pos h1 (by omega) hn) rfl rfl
    (fun x hx => ⟨hx, DT.pure hx⟩) (show DT noErr initVars JT by unfold initVars; dgo) (fun ep _ _ => ?_)
  show WT _ _ _ _ (evolve p ep) _
  unfold evolve
  refine WT.bindS (l1 := p * (c.popSize / p)) (h1 := p * (c.popSize / p))
    (WT.iter (fun i (l : List (Agent d K Unit)) => l.length = i * (c.popSize / p) ∧ ∀ a ∈ l, CF c a) p (by simp) ?_) (by omega) fun all ha => ?_
  · rintro i l hi ⟨g1, g2⟩
    refine WT.bindS (WT.buildEval hE fun s j hs hj => DT.mono (dt_move hE hP hj ?_) fun _ h => ⟨h, h⟩) le_rfl fun new hnew => ?_
    · exact le_trans (Nat.mul_le_mul_right _ hi) (Grouped.le hs.len)
    · refine WT.weaken (WT.pure ⟨by rw [List.length_append, g1, hnew.1, Nat.add_mul, Nat.one_mul], fun a ha => ?_⟩) (by omega) (by omega)
      rcases List.mem_append.1 ha with g | g
      · exact g2 a g
      · exact hnew.2 a g
  · refine WT.bind0 (WT.setPop (Or.inr ha.1) ha.2) fun _ _ => WT.bind0 (WT.modExt fun _ _ => trivial) fun _ _ => ?_
    refine WT.bind0 (WT.draw DT.uniform') fun u _ => ?_
    refine WT.bindS (WT.buildEval hE fun s i hs hi => ?_) (by omega) fun new hnew => WT.weaken (WT.reshape fun pop h1 h2 => ⟨by rw [overwrite_length]; exact h1, fun a ha => ?_⟩) (by omega) (by omega)
    · exact DT.bind DT.uniformVec' fun x _ => DT.bind (DT.correct hP) fun pos hp => DT.pure ⟨hp, hp⟩
    · rcases overwrite_mem ha with g | ⟨q, g1, g2⟩
      · exact h2 a g
      · rw [g2]; exact hnew.2 _ (List.of_mem_zip g1).2

end OriginalHGSO

namespace OriginalBSO

open ImprovedBSO (Centers Ok size)

theorem dt_centersUneven (hE : c.E.Lawful) {m : Nat} (h1 : 1 ≤ m) (h2 : m ≤ c.popSize) {pop : List (Agent d K Unit)} (hl : Grouped c m pop.length) :
    DT (only [.index]) (ImprovedBSO.centers m pop : D c _) (fun l => l.length = m) := by
  unfold ImprovedBSO.centers
  refine DT.mono (DT.repM (Q := fun _ => True) fun i hi => DT.mono (DT.bestAgent' hE ?_) fun _ _ => trivial) fun l hl => hl.1
  have h0 : 0 < c.popSize / m := Nat.div_pos h2 (by omega)
  have h3 := Grouped.at (c := c) hi h0
  have h4 := hl.le
  rw [List.length_take, List.length_drop]
  unfold ImprovedBSO.size
  omega

theorem dt_betweenUneven (hE : c.E.Lawful) {p : ImprovedBSO.Params K} (h2 : 2 ≤ p.m) (hn : p.m ≤ c.popSize) {eps : K} {cs : Centers d K} {ps : List (Vec d K)} :
    DT (only [.index]) (ImprovedBSO.between p eps cs ps : D c _) (fun _ => True) := by
  have h3 : 0 < size c p.m := Nat.div_pos hn (by omega)
  unfold ImprovedBSO.between
  refine DT.bind (DT.choose2 hE (by omega)) fun ij hij => DT.bind DT.uniform' fun u _ => DT.ite (fun _ => ?_) fun _ => ?_
  · exact DT.bind (DT.nth_tol (.head _)) fun a _ => DT.bind (DT.nth_tol (.head _)) fun b _ => DT.bind DT.normalVec fun n _ => DT.pure trivial
  · exact DT.bind (DT.index hE h3) fun r1 hr1 => DT.bind (DT.index hE h3) fun r2 hr2 => DT.bind (DT.nth_tol (.head _)) fun a _ => DT.bind (DT.nth_tol (.head _)) fun b _ => DT.bind DT.normalVec fun n _ => DT.pure trivial

theorem dt_moveUneven (hE : c.E.Lawful) (hP : c.P.Lawful) {p : Params K} (h2 : 2 ≤ p.base.m) (hn : p.base.m ≤ c.popSize) {eps : K} {cs : Centers d K} {ps : List (Vec d K)} {i : Nat} :
    DT (only [.index]) (move p eps cs ps i : D c _) (fun q => q.1 < p.base.m * (c.popSize / p.base.m) ∧ Feas c q.2) := by
  have hk : 0 < c.popSize / p.base.m := Nat.div_pos hn (by omega)
  unfold move
  refine DT.bind DT.uniform' fun u _ => DT.bind (R := fun _ => True) (DT.ite (fun _ => ?_) fun _ => DT.bind (dt_betweenUneven hE h2 hn) fun y _ => DT.pure trivial) fun q _ =>
    DT.bind (DT.correctWith hP DT.amendRandom) fun pos hp => DT.ite (fun g => DT.pure ⟨Grouped.at g (Nat.mod_lt _ hk), hp⟩) fun _ => DT.throw (.head _)
  refine DT.bind DT.uniform' fun v _ => DT.bind (R := fun _ => True) (DT.ite (fun _ => DT.mono (DT.index hE (by omega)) fun _ _ => trivial) fun _ => DT.pure trivial) fun ci _ =>
    DT.bind DT.uniform' fun w _ => DT.ite (fun _ => ?_) fun _ => ?_
  · exact DT.bind (DT.nth_tol (.head _)) fun a _ => DT.bind DT.normalVec fun n _ => DT.pure trivial
  · exact DT.bind (DT.index hE hk) fun r hr => DT.bind (DT.nth_tol (.head _)) fun x _ => DT.bind DT.normalVec fun n _ => DT.pure trivial

/-- without the condition that `m_clusters` divides `pop_size` -/
theorem wokUneven (hE : c.E.Lawful) (hP : c.P.Lawful) (hc : Accepted c 5) (p : Params K) (h2 : 2 ≤ p.base.m) (h5 : p.base.m ≤ c.popSize / 5) :
    (algo p : Algo c Unit (Centers d K)).WOk (only [.index]) (Inv.sized c Unit (Grouped c p.base.m) (Ok p.base.m)) JT (Ok p.base.m) c.popSize c.popSize 0 0
      (p.base.m * (c.popSize / p.base.m)) (c.popSize + 1) := by
  have hpop := hc.pop
  have hn : p.base.m ≤ c.popSize := by omega
  have hmul : p.base.m * (c.popSize / p.base.m) ≤ c.popSize := Nat.mul_div_le _ _
  unfold algo
  refine Algo.custom_wokS (J := (Ok p.base.m)) (J0 := JT) (S := Grouped c p.base.m) (fun n hn' => Grouped.pos (by omega) hn hn') (fun x hx => by dgo) (by dgo) (by omega) (fun y hy => ?_) (fun y pop hy hl hp => ?_) fun ep _ _ => ?_
  · unfold ImprovedBSO.initialization startPop
    exact BT.bindS (BT.generatePopulation hE hP fun x _ => DT.pure trivial) le_rfl fun pop hpop =>
      BT.bind0 (BT.liftD (dt_centersUneven hE (by omega) hn (.inl hpop.1))) fun l hl => BT.weaken (BT.pure ⟨.inl hpop.1, fun a ha => hpop.2 a ha, hl⟩) (by omega) (by omega)
  · unfold ImprovedBSO.initialization startPop
    rw [pure_bind]
    exact BT.bind0 (BT.liftD (dt_centersUneven hE (by omega) hn (.inl hl))) fun l hl' => BT.weaken (BT.pure ⟨.inl hl, hp, hl'⟩) (by omega) (by omega)
  unfold evolve
  refine WT.bind0 (WT.draw DT.uniform') fun u _ => ?_
  dsimp only
  refine WT.bindS (l1 := 0) (h1 := 1) (R := fun _ => True) ?_ (by omega) fun _ _ => ?_
  · unfold ImprovedBSO.respawn
    refine WT.bind0 (WT.draw DT.random') fun u _ => WT.ite (fun _ => ?_) fun _ => WT.weaken (WT.pure trivial) (by omega) (by omega)
    refine WT.bind0 (WT.draw (DT.index hE (by omega))) fun i hi => WT.bind0 (WT.draw (DT.genSolution hP)) fun x hx =>
      WT.bindS (WT.agentOf hx (DT.pure hx)) (by omega) fun a ha => ?_
    exact WT.weaken (WT.modExt fun y hy => (List.length_set ..).trans hy) (by omega) (by omega)
  refine WT.bind0 (WT.reshape fun pop h1 h2 => ⟨?_, fun a ha => h2 a (List.mem_of_mem_take ha)⟩) fun _ _ => ?_
  · refine Or.inr ?_
    have h3 : Grouped c p.base.m pop.length := h1
    rw [List.length_take]
    exact min_eq_left h3.le
  refine WT.bindS (l1 := p.base.m * (c.popSize / p.base.m)) (h1 := c.popSize) (R := fun _ => True) ?_ (by omega) fun _ _ => ?_
  · unfold ImprovedBSO.loop
    refine WT.ite (fun _ => ?_) fun _ => WT.iterU 1 1 (by omega) (by omega) fun i hi => ?_
    · refine WT.bind0 WT.get fun s hs => ?_
      have hl : Grouped c p.base.m s.pop.length := hs.len
      refine WT.bind0 (WT.draw (DT.movePos (Q := fun x => Feas c x) (N := s.pop.length) (by rw [List.length_map]) ?_ fun ps i hl' _ hi =>
        DT.mono (dt_moveUneven hE hP h2 hn) fun q hq => ⟨lt_of_lt_of_le hq.1 hl.le, hq.2⟩)) fun ps hps => ?_
      · intro x hx
        obtain ⟨a, ha, rfl⟩ := List.mem_map.1 hx
        exact (hs.pop a ha).2
      · refine WT.bindS (WT.evalChunksLe hE (by rw [List.length_map, hps.1]; exact hl.le) fun p hp => by
          obtain ⟨x, hx, rfl⟩ := List.mem_map.1 hp
          exact ⟨hps.2 x hx, hps.2 x hx⟩) hmul fun new hnew => WT.weaken (WT.setPop (Or.inr hnew.1) hnew.2) (by unfold ImprovedBSO.size; omega) (by omega)
    · refine WT.bind0 WT.get fun s hs => ?_
      refine WT.bind0 (WT.draw (dt_moveUneven hE hP h2 hn)) fun q hq => WT.bindS (WT.agentOf hq.2 (DT.pure hq.2)) (by omega) fun a ha => ?_
      exact WT.weaken (WT.setAt (fun n hn => lt_of_lt_of_le hq.1 (Grouped.le hn)) ha.1) (by omega) (by omega)
  · unfold ImprovedBSO.recentre
    exact WT.weaken (WT.bind0 WT.get fun s hs => WT.bind0 (WT.draw (dt_centersUneven hE (by omega) hn hs.len)) fun l hl => WT.modExt fun y _ => hl) (by omega) (by omega)

end OriginalBSO

namespace ImprovedTLO
variable {S : Nat → Prop}

theorem wt_sessionS (hE : c.E.Lawful) {p i : Nat} (hi : i < p) {mk : Agent d K Unit → List (Agent d K Unit) → Nat → D c (Vec d K × Unit)}
    (hmk : ∀ teacher team j, team.length = teamSize c p → j < team.length → DT noErr (mk teacher team j : D c _) (fun q => Feas c q.1)) :
    WT noErr (Inv.sized c Unit S (Ok p c)) (teamSize c p) (teamSize c p) (session p i mk : M c Unit (Vars d K) Unit) (fun _ => True) := by
  unfold session
  refine WT.bind0 WT.get fun s hs => ?_
  have hx : Ok p c s.ext := hs.ext
  refine WT.bind0 (WT.draw (DT.nth_mem (by rw [hx.1.1]; exact hi))) fun teacher _ => WT.bind0 (WT.draw (DT.nth_mem (by rw [hx.2.1]; exact hi))) fun team ht => ?_
  have ht' := hx.2.2 team ht
  refine WT.bindS (l1 := team.length) (h1 := team.length) (WT.buildEval hE fun s j _ hj => DT.mono (hmk teacher team j ht'.1 hj) fun q hq => ⟨hq, hq⟩) (by omega) fun new hn => ?_
  refine WT.weaken (WT.modExt fun y hy => Ok.setTeam hy ?_) (by omega) (by omega)
  have := select_ok (c := c) hn.1 ht'.2 hn.2
  exact ⟨by rw [this.1]; exact ht'.1, this.2⟩

theorem wt_promoteS (hE : c.E.Lawful) {p i : Nat} (hi : i < p) :
    WT noErr (Inv.sized c Unit S (Ok p c)) 0 0 (promote i : M c Unit (Vars d K) Unit) (fun _ => True) := by
  unfold promote
  refine WT.bind0 WT.get fun s hs => ?_
  have hx : Ok p c s.ext := hs.ext
  refine WT.bind0 (WT.draw (DT.nth_mem (by rw [hx.1.1]; exact hi))) fun teacher hte => WT.bind0 (WT.draw (DT.nth_mem (by rw [hx.2.1]; exact hi))) fun team ht => ?_
  have ht' := hx.2.2 team ht
  refine WT.bind0 (WT.draw (DT.sortedPop hE)) fun l hl => ?_
  have hll : l.length = teamSize c p + 1 := by rw [hl.1, List.length_append, ht'.1]; rfl
  have hcf : ∀ a ∈ l, CF c a := by
    intro a ha
    rcases List.mem_append.1 ((hl.2 a).1 ha) with g | g
    · exact ht'.2 a g
    · rw [List.mem_singleton.1 g]; exact hx.1.2 _ hte
  refine WT.bind0 (WT.draw (DT.nth_mem (by omega))) fun b hb => WT.modExt fun y hy => ?_
  exact Ok.setTeacher (Ok.setTeam hy ⟨by rw [List.length_drop, hll]; rfl, fun a ha => hcf a (List.mem_of_mem_drop ha)⟩) (hcf b hb)

/-- the teachers and the teams are as many as the groups hold -/
theorem sizeUneven {p : Nat} (h0 : 0 < p) (hp : p ≤ c.popSize) : p + p * teamSize c p = p * (c.popSize / p) := by
  have h1 : c.popSize / p = (c.popSize - p) / p + 1 := by
    have := Nat.add_div_right (c.popSize - p) h0
    rwa [Nat.sub_add_cancel hp] at this
  unfold teamSize
  rw [h1, Nat.mul_succ, Nat.add_comm]

theorem bt_restUneven {Er : Err → Prop} (hE : c.E.Lawful) {p : Nat} (h0 : 0 < p) (hp : p ≤ c.popSize)
    {pop : List (Agent d K Unit)} (hl : pop.length = c.popSize) (hc : ∀ a ∈ pop, CF c a) :
    BT Er 0 0 (do
      let sorted ← liftD (sortedPop pop)
      let perm ← liftD (permutation (c.popSize - p))
      let teams ← liftD (repM p (fun i => group c p (sorted.drop p) perm i))
      pure (pop, (⟨sorted.take p, teams⟩ : Vars d K)) : B c _) (fun r => Grouped c p r.1.length ∧ (∀ a ∈ r.1, CF c a) ∧ Ok p c r.2) := by
  have hsz := sizeUneven (c := c) h0 hp
  have hle : p * (c.popSize / p) ≤ c.popSize := Nat.mul_div_le _ _
  refine BT.bind0 (BT.liftD (DT.sortedPop hE)) fun l hl' => BT.bind0 (BT.liftD (DT.permutation' hE)) fun perm hperm => ?_
  have hcl : ∀ a ∈ l, CF c a := fun a ha => hc a ((hl'.2 a).1 ha)
  refine BT.bind0 (R := fun ts => ts.length = p ∧ ∀ t ∈ ts, t.length = teamSize c p ∧ ∀ a ∈ t, CF c a) (BT.liftD (DT.repM fun i hi => ?_)) fun ts hts => ?_
  · unfold group
    refine DT.repM fun j hj => ?_
    have hlt : i * teamSize c p + j < p * teamSize c p := by
      have : (i + 1) * teamSize c p ≤ p * teamSize c p := Nat.mul_le_mul_right _ hi
      rw [Nat.add_mul, Nat.one_mul] at this
      omega
    refine DT.bind (DT.nth_mem (by rw [hperm.1]; omega)) fun k hk => ?_
    have := hperm.2 k hk
    exact DT.mono (DT.nth_mem (by rw [List.length_drop]; omega)) fun a ha => hcl a (List.mem_of_mem_drop ha)
  · exact BT.pure ⟨.inl hl, hc, ⟨by rw [List.length_take]; omega, fun a ha => hcl a (List.mem_of_mem_take ha)⟩, hts.1, hts.2⟩

/-- without the condition that `n_teachers` divides `pop_size` -/
theorem wokUneven (hE : c.E.Lawful) (hP : c.P.Lawful) (hc : Accepted c 5) (p : Nat) (h0 : 2 ≤ p) (h2 : (p + 1) * (p + 1) ≤ c.popSize) :
    (algo p : Algo c Unit (Vars d K)).WOk noErr (Inv.sized c Unit (Grouped c p) (Ok p c)) JT (Ok p c) c.popSize c.popSize 0 0
      (p * teamSize c p + p * teamSize c p) (p * teamSize c p + p * teamSize c p) := by
  have hpop := hc.pop
  have hp : p ≤ c.popSize := le_trans (by nlinarith) h2
  unfold algo
  refine Algo.custom_wokS (J := (Ok p c)) (J0 := JT) (S := Grouped c p) (fun n hn => Grouped.pos (by omega) hp hn) (fun x hx => by dgo) (by dgo) (by omega) (fun y hy => ?_) (fun y pop hy hl hcf => ?_) (fun ep hep1 hep2 => ?_)
  · unfold initialization startPop
    exact BT.bindS (BT.generatePopulation hE hP fun x _ => DT.pure trivial) le_rfl fun pop hpop =>
      BT.weaken (bt_restUneven hE (by omega) hp hpop.1 hpop.2) (by omega) (by omega)
  · unfold initialization startPop
    rw [pure_bind]
    exact BT.weaken (bt_restUneven hE (by omega) hp hl hcf) (by omega) (by omega)
  unfold evolve
  have hsz := sizeUneven (c := c) (by omega) hp
  have htl := team_le (c := c) (by omega) h2
  refine WT.bindS (l1 := p * teamSize c p) (h1 := p * teamSize c p) (WT.iterU (teamSize c p) (teamSize c p) le_rfl le_rfl fun i hi => wt_sessionS hE hi fun teacher team j h3 h4 => dt_teach hE hP h0 (by omega) h4) (by omega) fun _ _ => ?_
  refine WT.bindS (l1 := p * teamSize c p) (h1 := p * teamSize c p) (WT.iterU (teamSize c p) (teamSize c p) le_rfl le_rfl fun i hi => WT.bind0 (WT.draw DT.random') fun u _ => wt_sessionS hE hi fun teacher team j h3 h4 => dt_learn hE hP (by omega) h3 h4) (by omega) fun _ _ => ?_
  refine WT.bindS (l1 := 0) (h1 := 0) (WT.iterU 0 0 (by omega) (by omega) fun i hi => wt_promoteS hE hi) (by omega) fun _ _ => ?_
  refine WT.bind0 WT.get fun s hs => ?_
  have hx : Ok p c s.ext := hs.ext
  refine WT.weaken (WT.setPop (Or.inr ?_) fun a ha => ?_) (by omega) (by omega)
  · rw [List.length_append, flat_length fun t ht => (hx.2.2 t ht).1, hx.1.1, hx.2.1]; exact hsz
  · rcases List.mem_append.1 ha with g | g
    · exact hx.1.2 a g
    · obtain ⟨t, g1, g2⟩ := List.mem_flatten.1 g
      exact (hx.2.2 t g1).2 a g2

end ImprovedTLO

end Mealpy
