import Verif.Alg.Kit14

/-! # Simple optimizers, part 14

`BSO.py`, `TWO.py` (without `EnhancedTWO`), `SRSR.py`, `MShOA.py` -/

set_option linter.unusedSectionVars false
set_option linter.unusedVariables false

namespace Mealpy
open Spec

variable {d : Nat} {K : Type} [Num K] {c : Cfg d K}
namespace ImprovedBSO

/-- the hyper-parameters (`mealpy/human_based/BSO.py:65-69`) -/
structure Params (K : Type) where
  m : Nat
  p1 : K
  p2 : K
  p3 : K
  p4 : K

/-- `m_solution` (`mealpy/human_based/BSO.py:72`) -/
def size (c : Cfg d K) (m : Nat) : Nat := c.popSize / m

/-- the attribute `centers`. The groups `pop_group` are always the consecutive pieces of the population. -/
abbrev Centers (d : Nat) (K : Type) := List (Agent d K Unit)

/-- `find_cluster__` (`mealpy/human_based/BSO.py:75-80`) -/
def centers (m : Nat) (pop : List (Agent d K Unit)) : D c (Centers d K) :=
  repM m (fun i => bestAgent ((pop.drop (i * size c m)).take (size c m)))

/-- `initialization` (`mealpy/human_based/BSO.py:82-86`) -/
def initialization (m : Nat) (_ : Centers d K) (pop : Option (List (Agent d K Unit))) : B c (List (Agent d K Unit) × Centers d K) := do
  let pop ← startPop (fun _ => pure ()) pop
  let l ← liftD (centers m pop)
  pure (pop, l)

/-- one centre is replaced (`mealpy/human_based/BSO.py:96-98`) -/
def respawn (m : Nat) (p1 : K) (coin : D c K) : M c Unit (Centers d K) Unit := do
  let u ← draw coin
  if u < p1 then do
    let i ← draw (index m)
    let x ← draw genSolution
    let a ← liftB (agentOf (fun _ => pure ()) x)
    modExt (fun l => l.set i a)
  else pure ()

/-- two clusters (`mealpy/human_based/BSO.py:111-118,224-231`) -/
def between (p : Params K) (eps : K) (cs : Centers d K) (ps : List (Vec d K)) : D c (Vec d K) := do
  let ij ← choose2 p.m
  let u ← uniform 0 1
  if u < p.p4 then do
    let a ← nth cs ij.1
    let b ← nth cs ij.2
    let n ← normalVec 0 1
    pure (fun j => 0.5 * (a.sol j + b.sol j) + eps * n j)
  else do
    let r1 ← index (size c p.m)
    let r2 ← index (size c p.m)
    let a ← nth ps (ij.1 * size c p.m + r1)
    let b ← nth ps (ij.2 * size c p.m + r2)
    let n ← normalVec 0 1
    pure (fun j => 0.5 * (a j + b j) + eps * n j)

/-- a new individual (`mealpy/human_based/BSO.py:101-121`). There is no group `m_clusters`: if `m_clusters` does not divide `pop_size`, storing the
agent raises (line 121), at the latest. -/
def move (p : Params K) (ep : Nat) (cs : Centers d K) (ps : List (Vec d K)) (idx : Nat) : D c (Nat × Vec d K) := do
  let eps : K := 1 - 1 * ♯ep / ♯c.epoch
  let u ← uniform 0 1
  let y ← (if u < p.p2 then do
      let v ← uniform 0 1
      if v < p.p3 then do
        let a ← nth cs (idx / size c p.m)
        let n ← normalVec 0 1
        pure (fun j => a.sol j + eps * n j)
      else do
        let l ← levyVec 1.0 0.001 (-1)
        let x ← nth ps idx
        pure (fun j => x j + l j)
    else between p eps cs ps : D c (Vec d K))
  let pos ← correct y
  if idx / size c p.m < p.m then pure (idx, pos) else dthrow .index

/-- the loop over the individuals (`mealpy/human_based/BSO.py:99-128,211-241`). `pop_group` and `self.pop_group` are the same object, so a new
agent is compared with itself and always stays. -/
def loop (m : Nat) (mk : Centers d K → List (Vec d K) → Nat → D c (Nat × Vec d K)) : M c Unit (Centers d K) Unit :=
  if c.swarmLike then do
    let s ← get
    let ps ← draw (movePos c.popSize (mk s.ext) (s.pop.map (·.sol)))
    let new ← evalChunks m (size c m) (ps.map (fun x => (x, ())))
    setPop new
  else
    iter c.popSize (fun i _ => do
      let s ← get
      let q ← draw (mk s.ext (s.pop.map (·.sol)) i)
      let a ← liftB (agentOf (fun _ => pure ()) q.2)
      setAt q.1 a) ()

/-- the new centres (`mealpy/human_based/BSO.py:131-134`) -/
def recentre (m : Nat) : M c Unit (Centers d K) Unit := do
  let s ← get
  let l ← draw (centers m s.pop)
  modExt (fun _ => l)

/-- `ImprovedBSO.evolve` (`mealpy/human_based/BSO.py:88-134`) -/
def evolve (p : Params K) (ep : Nat) : M c Unit (Centers d K) Unit := do
  respawn p.m p.p1 (uniform 0 1)
  loop p.m (move p ep)
  recentre p.m

/-- as many centres as clusters -/
def Ok (m : Nat) (y : Centers d K) : Prop := y.length = m

/-- at least two clusters, all of the same size -/
def Even (c : Cfg d K) (m : Nat) : Prop := 2 ≤ m ∧ m * size c m = c.popSize

section
variable {m : Nat}

theorem Even.pos (h : Even c m) (hn : 0 < c.popSize) : 0 < size c m := by
  rcases Nat.eq_zero_or_pos (size c m) with g | g
  · have := h.2
    rw [g] at this
    omega
  · exact g

theorem Even.at (h : Even c m) {i j : Nat} (hi : i < m) (hj : j < size c m) : i * size c m + j < c.popSize := by
  have h1 : (i + 1) * size c m ≤ m * size c m := Nat.mul_le_mul_right _ hi
  rw [h.2, Nat.add_mul, Nat.one_mul] at h1
  omega

theorem Even.div (h : Even c m) {i : Nat} (hi : i < c.popSize) : i / size c m < m := by
  have := h.2
  rcases Nat.eq_zero_or_pos (size c m) with g | g
  · rw [g] at this
    omega
  · rw [Nat.div_lt_iff_lt_mul g]
    omega

theorem dt_centers (hE : c.E.Lawful) (h : Even c m) (hn : 0 < c.popSize) {pop : List (Agent d K Unit)} (hl : pop.length = c.popSize) :
    DT noErr (centers m pop : D c _) (fun l => l.length = m) := by
  unfold centers
  refine DT.mono (DT.repM (Q := fun _ => True) fun i hi => DT.mono (DT.bestAgent' hE ?_) fun _ _ => trivial) fun l hl => hl.1
  have h1 := h.at hi (h.pos hn)
  have h2 := h.pos hn
  rw [List.length_take, List.length_drop, hl]
  omega

theorem bt_none (hE : c.E.Lawful) (hP : c.P.Lawful) (h : Even c m) (hn : 0 < c.popSize) {y : Centers d K} :
    BT noErr c.popSize c.popSize (initialization m y none : B c _) (fun r => r.1.length = c.popSize ∧ (∀ a ∈ r.1, CF c a) ∧ Ok m r.2) := by
  unfold initialization startPop
  exact BT.bindS (BT.generatePopulation hE hP fun x _ => DT.pure trivial) le_rfl fun pop hpop =>
    BT.bind0 (BT.liftD (dt_centers hE h hn hpop.1)) fun l hl => BT.weaken (BT.pure ⟨hpop.1, hpop.2, hl⟩) (by omega) (by omega)

theorem bt_some (hE : c.E.Lawful) (h : Even c m) (hn : 0 < c.popSize) {y : Centers d K} {pop : List (Agent d K Unit)} (hl : pop.length = c.popSize) (hc : ∀ a ∈ pop, CF c a) :
    BT noErr (c.popSize - c.popSize) (c.popSize - c.popSize) (initialization m y (some pop) : B c _)
      (fun r => r.1.length = c.popSize ∧ (∀ a ∈ r.1, CF c a) ∧ Ok m r.2) := by
  unfold initialization startPop
  rw [pure_bind]
  exact BT.bind0 (BT.liftD (dt_centers hE h hn hl)) fun l hl' => BT.weaken (BT.pure ⟨hl, hc, hl'⟩) (by omega) (by omega)

theorem wt_respawn (hE : c.E.Lawful) (hP : c.P.Lawful) (h : Even c m) {p1 : K} {coin : D c K} (hc : DT noErr coin (fun _ => True)) :
    WT noErr (Inv.std c Unit (Ok m)) 0 1 (respawn m p1 coin : M c Unit (Centers d K) Unit) (fun _ => True) := by
  have h2 := h.1
  unfold respawn
  refine WT.bind0 (WT.draw hc) fun u _ => WT.ite (fun _ => ?_) fun _ => WT.weaken (WT.pure trivial) (by omega) (by omega)
  refine WT.bind0 (WT.draw (DT.index hE (by omega))) fun i hi => WT.bind0 (WT.draw (DT.genSolution hP)) fun x hx => WT.agentOf_std hx (DT.pure trivial) (by omega) fun a ha => ?_
  exact WT.weaken (WT.modExt fun y hy => (List.length_set ..).trans hy) (by omega) (by omega)

theorem dt_between (hE : c.E.Lawful) {p : Params K} (h : Even c p.m) (hn : 0 < c.popSize) {eps : K} {cs : Centers d K} {ps : List (Vec d K)} (hcs : cs.length = p.m) (hps : ps.length = c.popSize) :
    DT noErr (between p eps cs ps : D c _) (fun _ => True) := by
  have h2 := h.1
  have h3 := h.pos hn
  unfold between
  refine DT.bind (DT.choose2 hE (by omega)) fun ij hij => DT.bind DT.uniform' fun u _ => DT.ite (fun _ => ?_) fun _ => ?_
  · exact DT.bind (DT.nth_mem (by omega)) fun a _ => DT.bind (DT.nth_mem (by omega)) fun b _ => DT.bind DT.normalVec fun n _ => DT.pure trivial
  · refine DT.bind (DT.index hE h3) fun r1 hr1 => DT.bind (DT.index hE h3) fun r2 hr2 => ?_
    have g1 := h.at (i := ij.1) (by omega) hr1
    have g2 := h.at (i := ij.2) (by omega) hr2
    exact DT.bind (DT.nth_mem (by omega)) fun a _ => DT.bind (DT.nth_mem (by omega)) fun b _ => DT.bind DT.normalVec fun n _ => DT.pure trivial

theorem wt_loop (hE : c.E.Lawful) (h : Even c m) {mk : Centers d K → List (Vec d K) → Nat → D c (Nat × Vec d K)}
    (hmk : ∀ cs ps i, cs.length = m → ps.length = c.popSize → i < c.popSize → DT noErr (mk cs ps i) (fun q => q.1 < c.popSize ∧ Feas c q.2)) :
    WT noErr (Inv.std c Unit (Ok m)) c.popSize c.popSize (loop m mk : M c Unit (Centers d K) Unit) (fun _ => True) := by
  unfold loop
  refine WT.ite (fun _ => ?_) fun _ => WT.iterU 1 1 (by omega) (by omega) fun i hi => ?_
  · refine WT.bind0 WT.get fun s hs => ?_
    have hl : s.pop.length = c.popSize := hs.len
    refine WT.bind0 (WT.draw (DT.movePos (Q := fun x => Feas c x) (N := c.popSize) (by rw [List.length_map]; exact hl) ?_ fun ps i hl' _ hi => hmk _ ps i hs.ext hl' hi)) fun ps hps => ?_
    · intro x hx
      obtain ⟨a, ha, rfl⟩ := List.mem_map.1 hx
      exact (hs.pop a ha).2
    · have h1 := WT.evalChunks (Er := noErr) (I := Inv.std c Unit (Ok m : Centers d K → Prop)) hE (k := m) (m := size c m) (pend := ps.map (fun x => (x, ()))) (by rw [List.length_map, hps.1, h.2]) fun p hp => by
        obtain ⟨x, hx, rfl⟩ := List.mem_map.1 hp
        exact Inv.std_mk (hps.2 x hx)
      rw [h.2] at h1
      exact WT.bindS h1 le_rfl fun new hnew => WT.weaken (WT.setPop hnew.1 hnew.2) (by omega) (by omega)
  · refine WT.bind0 WT.get fun s hs => ?_
    have hl : s.pop.length = c.popSize := hs.len
    refine WT.bind0 (WT.draw (hmk _ _ i hs.ext (by rw [List.length_map]; exact hl) hi)) fun q hq => WT.agentOf_std hq.2 (DT.pure trivial) (by omega) fun a ha => ?_
    exact WT.weaken (WT.setAt (fun n hn => by have : n = c.popSize := hn
                                              omega) (Inv.std_ag ha)) (by omega) (by omega)

theorem wt_recentre (hE : c.E.Lawful) (h : Even c m) (hn : 0 < c.popSize) :
    WT noErr (Inv.std c Unit (Ok m)) 0 0 (recentre m : M c Unit (Centers d K) Unit) (fun _ => True) := by
  unfold recentre
  exact WT.bind0 WT.get fun s hs => WT.bind0 (WT.draw (dt_centers hE h hn hs.len)) fun l hl => WT.modExt fun y _ => hl

theorem framed_respawn {p1 : K} {coin : D c K} : Framed true (respawn m p1 coin : M c Unit (Centers d K) Unit) := by
  unfold respawn; framed

theorem framed_loop (hE : c.E.Lawful) {mk : Centers d K → List (Vec d K) → Nat → D c (Nat × Vec d K)} : Framed true (loop m mk : M c Unit (Centers d K) Unit) := by
  unfold loop; framed

theorem framed_recentre : Framed true (recentre m : M c Unit (Centers d K) Unit) := by
  unfold recentre; framed

end

macro_rules
  | `(tactic| fprim) => `(tactic| (at_last ImprovedBSO.respawn; exact ImprovedBSO.framed_respawn))

macro_rules
  | `(tactic| fprim) => `(tactic| (at_last ImprovedBSO.loop; exact ImprovedBSO.framed_loop (by assumption)))

macro_rules
  | `(tactic| fprim) => `(tactic| (at_last ImprovedBSO.recentre; exact ImprovedBSO.framed_recentre))

theorem dt_move (hE : c.E.Lawful) (hP : c.P.Lawful) {p : Params K} (h : Even c p.m) (hn : 0 < c.popSize) {ep : Nat} {cs : Centers d K} {ps : List (Vec d K)} {i : Nat}
    (hcs : cs.length = p.m) (hps : ps.length = c.popSize) (hi : i < c.popSize) : DT noErr (move p ep cs ps i : D c _) (fun q => q.1 < c.popSize ∧ Feas c q.2) := by
  unfold move
  have hd := h.div hi
  refine DT.bind DT.uniform' fun u _ => DT.bind (R := fun _ => True) (DT.ite (fun _ => DT.bind DT.uniform' fun v _ => DT.ite (fun _ => ?_) fun _ => ?_) fun _ => dt_between hE h hn hcs hps) fun y _ =>
    DT.bind (DT.correct hP) fun pos hp => by rw [if_pos hd]; exact DT.pure ⟨hi, hp⟩
  · exact DT.bind (DT.nth_mem (by omega)) fun a _ => DT.bind DT.normalVec fun n _ => DT.pure trivial
  · exact DT.bind DT.levyVec fun l _ => DT.bind (DT.nth_mem (by omega)) fun x _ => DT.pure trivial

/-- `ImprovedBSO` (`mealpy/human_based/BSO.py:12-134`) -/
def algo (p : Params K) : Algo c Unit (Centers d K) := Algo.custom false (fun _ => pure ()) (pure []) (initialization p.m) (evolve p)

theorem wok (hE : c.E.Lawful) (hP : c.P.Lawful) (hc : Accepted c 5) (p : Params K) (he : Even c p.m) :
    (algo p : Algo c Unit (Centers d K)).WOk noErr (Inv.std c Unit (Ok p.m)) JT (Ok p.m) c.popSize c.popSize 0 0 c.popSize (c.popSize + 1) := by
  have hpop := hc.pop
  unfold algo
  refine Algo.custom_wok (J := (Ok p.m)) (J0 := JT) (by omega) (fun x hx => by dgo) (by dgo) (by omega) (fun y hy => bt_none hE hP he (by omega)) (fun y pop hy hl hp => bt_some hE he (by omega) hl hp) (fun ep hep1 hep2 => ?_)
  unfold evolve
  refine WT.bindS (wt_respawn hE hP he DT.uniform') (by omega) fun _ _ => ?_
  refine WT.bindS (wt_loop hE he fun cs ps i hcs hps hi => dt_move hE hP he (by omega) hcs hps hi) (by omega) fun _ _ => WT.weaken (wt_recentre hE he (by omega)) (by omega) (by omega)

theorem framed (hE : c.E.Lawful) (p : Params K) (ep : Nat) : Framed true (evolve p ep : M c Unit (Centers d K) Unit) := by
  unfold evolve; framed

end ImprovedBSO

namespace OriginalBSO

/-- the hyper-parameters (`mealpy/human_based/BSO.py:190-191`) -/
structure Params (K : Type) where
  base : ImprovedBSO.Params K
  slope : K

/-- a new individual (`mealpy/human_based/BSO.py:213-234`): it may be written into another cluster -/
def move (p : Params K) (eps : K) (cs : ImprovedBSO.Centers d K) (ps : List (Vec d K)) (idx : Nat) : D c (Nat × Vec d K) := do
  let k := ImprovedBSO.size c p.base.m
  let u ← uniform 0 1
  let q ← (if u < p.base.p2 then do
      let v ← uniform 0 1
      let ci ← (if v < p.base.p3 then index p.base.m else pure (idx / k))
      let w ← uniform 0 1
      if w < p.base.p3 then do
        let a ← nth cs ci
        let n ← normalVec 0 1
        pure (ci, fun j => a.sol j + eps * n j)
      else do
        let r ← index k
        let x ← nth ps (ci * k + r)
        let n ← normalVec 0 1
        pure (ci, fun j => x j + n j)
    else do
      let y ← ImprovedBSO.between p.base eps cs ps
      pure (idx / k, y) : D c (Nat × Vec d K))
  let pos ← correctWith amendRandom q.2
  if q.1 < p.base.m then pure (q.1 * k + idx % k, pos) else dthrow .index

/-- `OriginalBSO.evolve` (`mealpy/human_based/BSO.py:199-246`). The population is read and written through the clusters, which hold its first
`m_clusters * m_solution` agents; if `pop_size` is not a multiple of `m_clusters`, the others are lost in the first epoch. -/
def evolve (p : Params K) (ep : Nat) : M c Unit (ImprovedBSO.Centers d K) Unit := do
  let u ← draw (uniform 0 1)
  let x : K := (0.5 * ♯c.epoch - ♯ep) / p.slope
  ImprovedBSO.respawn p.base.m p.base.p1 random
  reshape (fun pop => pop.take (p.base.m * ImprovedBSO.size c p.base.m))
  ImprovedBSO.loop p.base.m (move p (u * (1 / (1 + Num.exp (-x)))))
  ImprovedBSO.recentre p.base.m

theorem dt_move (hE : c.E.Lawful) (hP : c.P.Lawful) {p : Params K} (h : ImprovedBSO.Even c p.base.m) (hn : 0 < c.popSize) {eps : K} {cs : ImprovedBSO.Centers d K} {ps : List (Vec d K)} {i : Nat}
    (hcs : cs.length = p.base.m) (hps : ps.length = c.popSize) (hi : i < c.popSize) : DT noErr (move p eps cs ps i : D c _) (fun q => q.1 < c.popSize ∧ Feas c q.2) := by
  unfold move
  have hd := h.div hi
  have hk := h.pos hn
  have h2 := h.1
  refine DT.bind DT.uniform' fun u _ => DT.bind (R := fun q => q.1 < p.base.m) (DT.ite (fun _ => ?_) fun _ => DT.bind (ImprovedBSO.dt_between hE h hn hcs hps) fun y _ => DT.pure hd) fun q hq =>
    DT.bind (DT.correctWith hP DT.amendRandom) fun pos hp => DT.ite (fun _ => DT.pure ⟨h.at hq (Nat.mod_lt _ hk), hp⟩) fun g => absurd hq g
  refine DT.bind DT.uniform' fun v _ => DT.bind (R := fun ci => ci < p.base.m) (DT.ite (fun _ => DT.index hE (by omega)) fun _ => DT.pure hd) fun ci hci => DT.bind DT.uniform' fun w _ => DT.ite (fun _ => ?_) fun _ => ?_
  · exact DT.bind (DT.nth_mem (by omega)) fun a _ => DT.bind DT.normalVec fun n _ => DT.pure hci
  · refine DT.bind (DT.index hE hk) fun r hr => ?_
    have g := h.at hci hr
    exact DT.bind (DT.nth_mem (by omega)) fun x _ => DT.bind DT.normalVec fun n _ => DT.pure hci

/-- `OriginalBSO` (`mealpy/human_based/BSO.py:137-246`) -/
def algo (p : Params K) : Algo c Unit (ImprovedBSO.Centers d K) := Algo.custom false (fun _ => pure ()) (pure []) (ImprovedBSO.initialization p.base.m) (evolve p)

theorem wok (hE : c.E.Lawful) (hP : c.P.Lawful) (hc : Accepted c 5) (p : Params K) (he : ImprovedBSO.Even c p.base.m) :
    (algo p : Algo c Unit (ImprovedBSO.Centers d K)).WOk noErr (Inv.std c Unit (ImprovedBSO.Ok p.base.m)) JT (ImprovedBSO.Ok p.base.m) c.popSize c.popSize 0 0 c.popSize (c.popSize + 1) := by
  have hpop := hc.pop
  unfold algo
  refine Algo.custom_wok (J := (ImprovedBSO.Ok p.base.m)) (J0 := JT) (by omega) (fun x hx => by dgo) (by dgo) (by omega) (fun y hy => ImprovedBSO.bt_none hE hP he (by omega)) (fun y pop hy hl hp => ImprovedBSO.bt_some hE he (by omega) hl hp) (fun ep hep1 hep2 => ?_)
  unfold evolve
  refine WT.bind0 (WT.draw DT.uniform') fun u _ => ?_
  refine WT.bindS (ImprovedBSO.wt_respawn hE hP he DT.random') (by omega) fun _ _ => ?_
  refine WT.bind0 (WT.reshape fun pop h1 h2 => ⟨?_, fun a ha => h2 a (List.mem_of_mem_take ha)⟩) fun _ _ => ?_
  · have h3 : pop.length = c.popSize := h1
    rw [List.length_take, he.2, h3, min_self]; exact rfl
  refine WT.bindS (ImprovedBSO.wt_loop hE he fun cs ps i hcs hps hi => dt_move hE hP he (by omega) hcs hps hi) (by omega) fun _ _ => WT.weaken (ImprovedBSO.wt_recentre hE he (by omega)) (by omega) (by omega)

theorem framed (hE : c.E.Lawful) (p : Params K) (ep : Nat) : Framed true (evolve p ep : M c Unit (ImprovedBSO.Centers d K) Unit) := by
  unfold evolve; framed

end OriginalBSO

namespace OriginalTWO

/-- `update_weight__` (`mealpy/physics_based/TWO.py:80-89`): `teams[idx]` is taken for every `idx` below `pop_size` -/
def weigh (l : List (Agent d K K)) : D c (List (Agent d K K)) := do
  let mx := maxL (l.map (·.fit))
  let mn := minL (l.map (·.fit))
  let fs ← (if mx = mn then repM c.popSize (fun _ => uniform 0 1) else pure (l.map (·.fit)) : D c (List K))
  let ws := fs.map (fun f => Num.exp (-(f - mx) / (mx - mn)))
  if l.length < c.popSize then dthrow .index
  else pure (List.zipWith (fun a w => { a with ext := w / sumL ws + 0.1 }) l ws)

/-- `initialization` (`mealpy/physics_based/TWO.py:64-67`) -/
def initialization (_ : Unit) (pop : Option (List (Agent d K K))) : B c (List (Agent d K K) × Unit) := do
  let pop ← startPop (fun _ => pure 0) pop
  let pop ← liftD (weigh pop)
  pure (pop, ())

/-- the pull of the heavier teams (`mealpy/physics_based/TWO.py:98-110`). `pop_new` holds the agents of `self.pop`, so a moved team pulls from
its new position. -/
def pull (ep : Nat) (pop : List (Agent d K K)) : D c (List (Vec d K)) :=
  movePos c.popSize (fun ps i => do
    let a ← nth pop i
    let x ← nth ps i
    let y ← iter c.popSize (fun k (y : Vec d K) => do
      let b ← nth pop k
      let z ← nth ps k
      if a.ext < b.ext then do
        let f : K := max (a.ext * 1) (b.ext * 1) - a.ext * 1
        let n ← normalVec 0 1
        pure (fun j => y j + (0.5 * (f * (z j - x j) / (a.ext * 1)) + Num.pow 0.99 (♯ep) * 0.1 * (c.P.ub j - c.P.lb j) * n j))
      else pure y) x
    pure (i, y)) (pop.map (·.sol))

/-- coordinates outside the bounds (`mealpy/physics_based/TWO.py:112-123`) -/
def repair (ep : Nat) (g x : Vec d K) : D c (Vec d K) :=
  vecM (fun j => if x j < c.P.lb j ∨ c.P.ub j < x j then do
      let r ← random
      if r ≤ 0.5 then do
        let n ← normal 0 1
        let v := g j + n / ♯ep * (g j - x j)
        pure (if v < c.P.lb j ∨ c.P.ub j < v then x j else v)
      else
        pure (let v := if x j < c.P.lb j then c.P.lb j else x j
              if c.P.ub j < v then c.P.ub j else v)
    else pure (x j))

/-- `OriginalTWO.evolve` (`mealpy/physics_based/TWO.py:91-132`). A moved agent is compared with itself, so all of them stay. -/
def evolve (ep : Nat) : M c K Unit Unit := do
  let s ← get
  let ps ← draw (pull ep s.pop)
  let new ← buildEval c.popSize (fun s i => do
    let x ← nth ps i
    let y ← repair ep s.gbest.sol x
    let pos ← correct y
    let a ← nth s.pop i
    pure (pos, a.ext))
  let new ← draw (weigh new)
  setPop new

theorem dt_weigh {l : List (Agent d K K)} (hl : l.length = c.popSize) (hc : ∀ a ∈ l, CF c a) :
    DT noErr (weigh l : D c _) (fun r => r.length = c.popSize ∧ ∀ a ∈ r, CF c a) := by
  unfold weigh
  refine DT.bind (R := fun fs => fs.length = c.popSize) (DT.ite (fun _ => DT.mono (DT.repMT fun i _ => DT.uniform') fun fs h => ?_) fun _ => DT.pure (by rw [List.length_map]; exact hl)) fun fs hfs => ?_
  · exact h
  · rw [if_neg (by omega)]
    refine DT.pure ⟨by rw [List.length_zipWith, List.length_map, hfs, hl, Nat.min_self], fun a ha => ?_⟩
    obtain ⟨b, hb, w, _, rfl⟩ := mem_zipWith' ha
    exact hc b hb

theorem dt_pull {ep : Nat} {pop : List (Agent d K K)} (hl : pop.length = c.popSize) : DT noErr (pull ep pop : D c _) (fun ps => ps.length = c.popSize) := by
  unfold pull
  refine DT.mono (DT.movePos (Q := fun _ => True) (N := c.popSize) (by rw [List.length_map]; exact hl) (by simp) fun ps i hps _ hi => ?_) fun _ h => h.1
  refine DT.bind (DT.nth_mem (by omega)) fun a _ => DT.bind (DT.nth_mem (by omega)) fun x _ => DT.bind (R := fun _ => True) (DT.iterT fun k y hk => ?_) fun y _ => DT.pure ⟨hi, trivial⟩
  exact DT.bind (DT.nth_mem (by omega)) fun b _ => DT.bind (DT.nth_mem (by omega)) fun z _ => DT.ite (fun _ => DT.bind DT.normalVec fun n _ => DT.pure trivial) fun _ => DT.pure trivial

theorem dt_repair {ep : Nat} {g x : Vec d K} : DT noErr (repair ep g x : D c _) (fun _ => True) := by
  unfold repair
  refine DT.mono (DT.vecMT fun j => DT.ite (fun _ => DT.bind DT.random' fun r _ => DT.ite (fun _ => DT.bind DT.normal fun n _ => DT.pure trivial) fun _ => DT.pure trivial) fun _ => DT.pure trivial) fun _ _ => trivial

theorem bt_none (hE : c.E.Lawful) (hP : c.P.Lawful) {y : Unit} :
    BT noErr c.popSize c.popSize (initialization y none : B c (List (Agent d K K) × Unit)) (fun r => r.1.length = c.popSize ∧ (∀ a ∈ r.1, CF c a) ∧ JT r.2) := by
  unfold initialization startPop
  exact BT.bindS (BT.generatePopulation hE hP fun x _ => DT.pure trivial) le_rfl fun pop hpop =>
    BT.bind0 (BT.liftD (dt_weigh hpop.1 hpop.2)) fun l hl => BT.weaken (BT.pure ⟨hl.1, hl.2, trivial⟩) (by omega) (by omega)

theorem bt_some {y : Unit} {pop : List (Agent d K K)} (hl : pop.length = c.popSize) (hc : ∀ a ∈ pop, CF c a) :
    BT noErr (c.popSize - c.popSize) (c.popSize - c.popSize) (initialization y (some pop) : B c _)
      (fun r => r.1.length = c.popSize ∧ (∀ a ∈ r.1, CF c a) ∧ JT r.2) := by
  unfold initialization startPop
  rw [pure_bind]
  exact BT.bind0 (BT.liftD (dt_weigh hl hc)) fun l hl' => BT.weaken (BT.pure ⟨hl'.1, hl'.2, trivial⟩) (by omega) (by omega)

/-- `OriginalTWO` (`mealpy/physics_based/TWO.py:13-132`) -/
def algo : Algo c K Unit := Algo.custom false (fun _ => pure 0) (pure ()) initialization evolve

theorem wok (hE : c.E.Lawful) (hP : c.P.Lawful) (hc : Accepted c 5) :
    (algo : Algo c K Unit).WOk noErr (Inv.std c K JT) JT JT c.popSize c.popSize 0 0 c.popSize c.popSize := by
  have hpop := hc.pop
  unfold algo
  refine Algo.custom_wok (J := JT) (J0 := JT) (by omega) (fun x hx => by dgo) (by dgo) (by omega) (fun y hy => bt_none hE hP) (fun y pop hy hl hp => bt_some hl hp) (fun ep hep1 hep2 => ?_)
  unfold evolve
  refine WT.bind0 WT.get fun s hs => WT.bind0 (WT.draw (dt_pull hs.len)) fun ps hps => ?_
  refine WT.bindS (WT.buildEval hE fun s i hs hi => ?_) le_rfl fun new hnew => WT.bind0 (WT.draw (dt_weigh hnew.1 fun a ha => ?_)) fun l hl => WT.weaken (WT.setPop hl.1 fun a ha => Inv.std_ag (hl.2 a ha)) (by omega) (by omega)
  · have hl : s.pop.length = c.popSize := hs.len
    exact DT.bind (DT.nth_mem (by omega)) fun x _ => DT.bind dt_repair fun y _ => DT.bind (DT.correct hP) fun pos hp => DT.bind (DT.nth_mem (by omega)) fun a _ => DT.pure (Inv.std_mk hp)
  · exact ⟨(hnew.2 a ha).1, (hnew.2 a ha).2⟩

theorem framed (hE : c.E.Lawful) (ep : Nat) : Framed true (evolve ep : M c K Unit Unit) := by
  unfold evolve; framed

end OriginalTWO

namespace OppoTWO

/-- `initialization` (`mealpy/physics_based/TWO.py:171-186`): half of the population and the opposite agents -/
def initialization (_ : Unit) (pop : Option (List (Agent d K K))) : B c (List (Agent d K K) × Unit) := do
  let pop ← startPop (fun _ => pure 0) pop
  let is ← liftD (choice c.popSize (c.popSize / 2) false)
  let half ← liftD (repM (c.popSize / 2) (fun i => do
    let k ← nth is i
    nth pop k))
  let oppo ← buildB (c.popSize / 2) (fun i => do
    let a ← nth half i
    let pos ← correct (fun j => c.P.ub j + c.P.lb j - a.sol j)
    pure (pos, (0 : K)))
  let pop ← liftD (OriginalTWO.weigh (half ++ oppo))
  pure (pop, ())

/-- the moved agents are evaluated (`mealpy/physics_based/TWO.py:210-221,294-313`); in `single` mode the position is corrected for the
agent but the target is that of the uncorrected position -/
def settle (mk : St c K Unit → Nat → D c (Vec d K × K)) : M c K Unit (List (Agent d K K)) :=
  if c.swarmLike = true then
    buildEval c.popSize (fun s i => do
      let q ← mk s i
      let pos ← correct q.1
      pure (pos, q.2))
  else
    iter c.popSize (fun i acc => do
      let s ← get
      let q ← draw (mk s i)
      let pos ← draw (correct q.1)
      let t ← liftB (getTarget q.1)
      pure (acc ++ [⟨pos, t, q.2⟩])) []

/-- a moved agent (`mealpy/physics_based/TWO.py:211-214`) -/
def mend (ep : Nat) (ps : List (Vec d K)) (s : St c K Unit) (i : Nat) : D c (Vec d K × K) := do
  let x ← nth ps i
  let n ← normalVec 0 1
  let r ← randomVec
  let a ← nth s.pop i
  pure (fun j => if (x j < c.P.lb j ∨ c.P.ub j < x j) ∧ r j < 0.5 then s.gbest.sol j + n j / ♯ep * (s.gbest.sol j - x j) else x j, a.ext)

/-- new weights (`mealpy/physics_based/TWO.py:132,235`) -/
def reweigh : M c K Unit Unit := do
  let s ← get
  let l ← draw (OriginalTWO.weigh s.pop)
  setPop l

/-- `OppoTWO.evolve` (`mealpy/physics_based/TWO.py:188-235`) -/
def evolve (ep : Nat) : M c K Unit Unit := do
  let s ← get
  let ps ← draw (OriginalTWO.pull ep s.pop)
  let new ← settle (mend ep ps)
  setPop new
  greedyLoop c.popSize (fun s i => do
    let a ← nth s.pop i
    let y ← oppositionSol a.sol s.gbest.sol
    let pos ← correct y
    pure (pos, 0))
  reweigh

theorem dt_mend {ep : Nat} {ps : List (Vec d K)} {s : St c K Unit} {i : Nat} (hps : ps.length = c.popSize) (hl : s.pop.length = c.popSize) (hi : i < c.popSize) :
    DT noErr (mend ep ps s i : D c _) (fun _ => True) := by
  unfold mend
  exact DT.bind (DT.nth_mem (by omega)) fun x _ => DT.bind DT.normalVec fun n _ => DT.bind DT.randomVec fun r _ => DT.bind (DT.nth_mem (by omega)) fun a _ => DT.pure trivial

theorem wt_settle (hE : c.E.Lawful) (hP : c.P.Lawful) (hm : c.swarmLike = true) {mk : St c K Unit → Nat → D c (Vec d K × K)}
    (hmk : ∀ s i, s.pop.length = c.popSize → i < c.popSize → DT noErr (mk s i) (fun _ => True)) :
    WT noErr (Inv.std c K JT) c.popSize c.popSize (settle mk : M c K Unit _) (fun l => l.length = c.popSize ∧ ∀ a ∈ l, (Inv.std c K (JT : Unit → Prop)).Ag a) := by
  unfold settle
  rw [if_pos hm]
  exact WT.buildEval hE fun s i hs hi => DT.bind (hmk s i hs.len hi) fun q _ => DT.bind (DT.correct hP) fun pos hp => DT.pure (Inv.std_mk hp)

theorem framed_settle (hE : c.E.Lawful) {mk : St c K Unit → Nat → D c (Vec d K × K)} : Framed true (settle mk : M c K Unit _) := by
  unfold settle; framed

theorem wt_reweigh : WT noErr (Inv.std c K JT) 0 0 (reweigh : M c K Unit Unit) (fun _ => True) := by
  unfold reweigh
  exact WT.bind0 WT.get fun s hs => WT.bind0 (WT.draw (OriginalTWO.dt_weigh hs.len fun a ha => ⟨(hs.pop a ha).1, (hs.pop a ha).2⟩)) fun l hl => WT.setPop hl.1 fun a ha => Inv.std_ag (hl.2 a ha)

theorem framed_reweigh : Framed true (reweigh : M c K Unit Unit) := by
  unfold reweigh; framed

macro_rules
  | `(tactic| fprim) => `(tactic| (at_last OppoTWO.settle; exact OppoTWO.framed_settle (by assumption)))

macro_rules
  | `(tactic| fprim) => `(tactic| (at_last OppoTWO.reweigh; exact OppoTWO.framed_reweigh))

theorem bt_rest (hE : c.E.Lawful) (hP : c.P.Lawful) (h2 : c.popSize % 2 = 0) (hn : 0 < c.popSize) {y : Unit} {pop : List (Agent d K K)} (hl : pop.length = c.popSize) (hc : ∀ a ∈ pop, CF c a) :
    BT noErr (c.popSize / 2) (c.popSize / 2) (initialization y (some pop) : B c (List (Agent d K K) × Unit)) (fun r => r.1.length = c.popSize ∧ (∀ a ∈ r.1, CF c a) ∧ JT r.2) := by
  unfold initialization startPop
  rw [pure_bind]
  refine BT.bind0 (BT.liftD (DT.choice hE (choiceErr_false hn (by omega)))) fun is his => ?_
  have hlen := his.1
  refine BT.bind0 (BT.liftD (DT.repM (Q := fun a => CF c a) fun i hi => DT.bind (DT.nth_mem (by omega)) fun k hk => ?_)) fun half hhalf => ?_
  · have := his.2.1 k hk
    exact DT.mono (DT.nth_mem (by omega)) fun a ha => hc a ha
  have h1 := hhalf.1
  refine BT.bindS (BT.buildB hE fun i hi => DT.bind (DT.nth_mem (by omega)) fun a _ => DT.bind (DT.correct hP) fun pos hp => DT.pure hp) le_rfl fun oppo hoppo => ?_
  have h3 := hoppo.1
  refine BT.bind0 (BT.liftD (OriginalTWO.dt_weigh (by rw [List.length_append]; omega) fun a ha => ?_)) fun l hl' => BT.weaken (BT.pure ⟨hl'.1, hl'.2, trivial⟩) (by omega) (by omega)
  rcases List.mem_append.1 ha with g | g
  · exact hhalf.2 a g
  · exact hoppo.2 a g

theorem bt_none (hE : c.E.Lawful) (hP : c.P.Lawful) (h2 : c.popSize % 2 = 0) (hn : 0 < c.popSize) {y : Unit} :
    BT noErr (c.popSize + c.popSize / 2) (c.popSize + c.popSize / 2) (initialization y none : B c (List (Agent d K K) × Unit)) (fun r => r.1.length = c.popSize ∧ (∀ a ∈ r.1, CF c a) ∧ JT r.2) := by
  have hb : (initialization y none : B c (List (Agent d K K) × Unit)) = (do
      let pop ← generatePopulation (fun _ => pure 0) c.popSize
      initialization y (some pop)) := by
    unfold initialization startPop
    simp only [pure_bind]
  rw [hb]
  exact BT.bind (BT.generatePopulation hE hP fun x _ => DT.pure trivial) fun pop hpop => bt_rest hE hP h2 hn hpop.1 hpop.2

/-- `OppoTWO` (`mealpy/physics_based/TWO.py:135-235`) -/
def algo : Algo c K Unit := Algo.custom false (fun _ => pure 0) (pure ()) initialization evolve

theorem wok (hE : c.E.Lawful) (hP : c.P.Lawful) (hc : Accepted c 5) (h2 : c.popSize % 2 = 0) (hm : c.swarmLike = true) :
    (algo : Algo c K Unit).WOk noErr (Inv.std c K JT) JT JT (c.popSize + c.popSize / 2) (c.popSize + c.popSize / 2) 0 0 (c.popSize + c.popSize) (c.popSize + c.popSize) := by
  have hpop := hc.pop
  unfold algo
  refine Algo.custom_wok (J := JT) (J0 := JT) (by omega) (fun x hx => by dgo) (by dgo) (by omega) (fun y hy => bt_none hE hP h2 (by omega)) (fun y pop hy hl hp => BT.weaken (bt_rest hE hP h2 (by omega) hl hp) (by omega) (by omega)) (fun ep hep1 hep2 => ?_)
  unfold evolve
  refine WT.bind0 WT.get fun s hs => WT.bind0 (WT.draw (OriginalTWO.dt_pull hs.len)) fun ps hps => ?_
  refine WT.bindS (wt_settle hE hP hm fun s i hl hi => dt_mend hps hl hi) (by omega) fun new hnew => WT.bind0 (WT.setPop hnew.1 hnew.2) fun _ _ => ?_
  refine WT.bindS (WT.greedyLoop hE (fun _ h => h) fun s i hs hl hi => ?_) (by omega) fun _ _ => WT.weaken wt_reweigh (by omega) (by omega)
  exact DT.bind (DT.nth_mem (by omega)) fun a _ => DT.bind (DT.oppositionSol hP) fun y _ => DT.bind (DT.correct hP) fun pos hp => DT.pure (Inv.std_mk hp)

theorem framed (hE : c.E.Lawful) (ep : Nat) : Framed true (evolve ep : M c K Unit Unit) := by
  unfold evolve; framed

end OppoTWO

namespace LevyTWO

/-- a moved agent (`mealpy/physics_based/TWO.py:295-306`) -/
def mend (ep : Nat) (ps : List (Vec d K)) (s : St c K Unit) (i : Nat) : D c (Vec d K × K) := do
  let x ← nth ps i
  let y ← OriginalTWO.repair ep s.gbest.sol x
  let a ← nth s.pop i
  pure (y, a.ext)

/-- Levy flights (`mealpy/physics_based/TWO.py:315-323`) -/
def fly (i : Nat) : M c K Unit Unit := do
  let r ← draw random
  if r < 0.5 then do
    let l ← draw (levyVec 1.0 0.01 (-1))
    let a ← popAt i
    let pos ← draw (correct (fun j => a.sol j + l j))
    tryCompare (fun _ => pure 0) i pos
  else pure ()

/-- `LevyTWO.evolve` (`mealpy/physics_based/TWO.py:274-324`) -/
def evolve (ep : Nat) : M c K Unit Unit := do
  let s ← get
  let ps ← draw (OriginalTWO.pull ep s.pop)
  let new ← OppoTWO.settle (mend ep ps)
  setPop new
  iter c.popSize (fun i _ => fly i) ()
  OppoTWO.reweigh

theorem dt_mend {ep : Nat} {ps : List (Vec d K)} {s : St c K Unit} {i : Nat} (hps : ps.length = c.popSize) (hl : s.pop.length = c.popSize) (hi : i < c.popSize) :
    DT noErr (mend ep ps s i : D c _) (fun _ => True) := by
  unfold mend
  exact DT.bind (DT.nth_mem (by omega)) fun x _ => DT.bind OriginalTWO.dt_repair fun y _ => DT.bind (DT.nth_mem (by omega)) fun a _ => DT.pure trivial

theorem wt_fly (hP : c.P.Lawful) {i : Nat} (hi : i < c.popSize) : WT noErr (Inv.std c K JT) 0 1 (fly i : M c K Unit Unit) (fun _ => True) := by
  unfold fly
  refine WT.bind0 (WT.draw DT.random') fun r _ => WT.ite (fun _ => ?_) fun _ => WT.weaken (WT.pure trivial) (by omega) (by omega)
  refine WT.bind0 (WT.draw DT.levyVec) fun l _ => WT.bind0 (WT.popAt (by wsz)) fun a _ => WT.bind0 (WT.draw (DT.correct hP)) fun pos hp => ?_
  exact WT.weaken (WT.tryCompare (by wsz) hp (DT.pure hp)) (by omega) (by omega)

theorem framed_fly {i : Nat} : Framed true (fly i : M c K Unit Unit) := by
  unfold fly; framed

macro_rules
  | `(tactic| fprim) => `(tactic| (at_last LevyTWO.fly; exact LevyTWO.framed_fly))

/-- `LevyTWO` (`mealpy/physics_based/TWO.py:238-324`) -/
def algo : Algo c K Unit := Algo.custom false (fun _ => pure 0) (pure ()) OriginalTWO.initialization evolve

theorem wok (hE : c.E.Lawful) (hP : c.P.Lawful) (hc : Accepted c 5) (hm : c.swarmLike = true) :
    (algo : Algo c K Unit).WOk noErr (Inv.std c K JT) JT JT c.popSize c.popSize 0 0 c.popSize (c.popSize + c.popSize) := by
  have hpop := hc.pop
  unfold algo
  refine Algo.custom_wok (J := JT) (J0 := JT) (by omega) (fun x hx => by dgo) (by dgo) (by omega) (fun y hy => OriginalTWO.bt_none hE hP) (fun y pop hy hl hp => OriginalTWO.bt_some hl hp) (fun ep hep1 hep2 => ?_)
  unfold evolve
  refine WT.bind0 WT.get fun s hs => WT.bind0 (WT.draw (OriginalTWO.dt_pull hs.len)) fun ps hps => ?_
  refine WT.bindS (OppoTWO.wt_settle hE hP hm fun s i hl hi => dt_mend hps hl hi) (by omega) fun new hnew => WT.bind0 (WT.setPop hnew.1 hnew.2) fun _ _ => ?_
  exact WT.bindS (l1 := 0) (h1 := c.popSize) (R := fun _ => True) (WT.iterU 0 1 (by omega) (by omega) fun i hi => wt_fly hP hi) (by omega) fun _ _ => WT.weaken OppoTWO.wt_reweigh (by omega) (by omega)

theorem framed (hE : c.E.Lawful) (ep : Nat) : Framed true (evolve ep : M c K Unit Unit) := by
  unfold evolve; framed

end LevyTWO

namespace OriginalMShOA

/-- `amend_solution` (`mealpy/swarm_based/MShOA.py:83-90`) -/
def amend (x : Vec d K) : D c (Vec d K) := do
  let r ← randomVec
  pure (fun j => if c.P.ub j < x j ∨ x j < c.P.lb j then c.P.lb j + r j * (c.P.ub j - c.P.lb j) else x j)

/-- `initialize_variables` (`mealpy/swarm_based/MShOA.py:79-81`) -/
def initVars : D c (List Nat) := repM c.popSize (fun _ => do
  let k ← integers 1 4
  pure k.toNat)

/-- the position of an agent of polarization `t` (`mealpy/swarm_based/MShOA.py:187-207`). The loop that draws `r` until it differs from
`idx` is modelled by one draw among the other indices; that it may run for ever is not modelled. -/
def step (t : Nat) (s : St c Unit (List Nat)) (idx : Nat) (x : Vec d K) : D c (Vec d K) :=
  if t = 1 then do
    let r ← pickWithout c.popSize [idx]
    let u ← random
    let y ← nth s.pop r
    pure (fun j => (s.gbest.sol j - x j) + (-1 + 2 * u) * (y.sol j - s.gbest.sol j))
  else if t = 2 then do
    let u ← random
    pure (fun j => s.gbest.sol j * Num.cos (Num.ufunc "radians" (180 + (360 - 180) * u)))
  else do
    let k ← random
    let b ← choice1 2
    let u ← random
    let sgn : K := if b = 1 then 1 else -1
    let y : Vec d K := fun j => s.gbest.sol j + u * sgn * (0.3 * k) * s.gbest.sol j
    if b = 1 then do
      let v ← random
      pure (fun j => y j * Num.cos (Num.ufunc "radians" (180 + (360 - 180) * v)))
    else pure y

/-- a new agent (`mealpy/swarm_based/MShOA.py:186-214`) -/
def move (s : St c Unit (List Nat)) (idx : Nat) : D c (Vec d K × Unit) := do
  let t ← nth s.ext idx
  let x ← nth s.pop idx
  let y ← step t s idx x.sol
  let pos ← correctWith amend y
  pure (pos, ())

/-- the three differences of an angle (`mealpy/swarm_based/MShOA.py:127-140,148-161`) -/
def refs (a : K) : List K :=
  if 90 < a then
    [180 - a, a - 90, if 125 ≤ a ∧ a ≤ 145 then 0 else if a ≤ 135 then 135 - a else a - 135]
  else
    [a - 0, 90 - a, if 35 ≤ a ∧ a ≤ 55 then 0 else if a ≤ 45 then 45 - a else a - 45]

/-- `get_polarization` (`mealpy/swarm_based/MShOA.py:92-176`) -/
def polarize (prev cur : List (Vec d K)) : D c (List Nat) := do
  let k1 ← integers 1 (c.popSize + 1)
  let k2' ← integers 1 c.popSize
  let k2 := k1 + k2'
  let l1 ← repM c.popSize (fun i => do
    let x ← nth prev ((((i : Int) - k1) % (c.popSize : Int)).toNat)
    let y ← nth cur ((((i : Int) - k2) % (c.popSize : Int)).toNat)
    let v1 : Vec d K := fun j => x j / (normV x + 1e-10)
    let v2 : Vec d K := fun j => y j / (normV y + 1e-10)
    pure (refs (Num.ufunc "degrees" (Num.ufunc "arccos" (clip (sumL (List.ofFn (fun j => v1 j * v2 j))) (-1) 1)))))
  let l2 ← repM c.popSize (fun _ => do
    let a ← integers 1 91
    pure (refs (♯a.toNat : K)))
  repM c.popSize (fun i => do
    let r1 ← nth l1 i
    let r2 ← nth l2 i
    pure (if minL r1 ≤ minL r2 then argminL r1 + 1 else argminL r2 + 1))

/-- `OriginalMShOA.evolve` (`mealpy/swarm_based/MShOA.py:178-220`) -/
def evolve (ep : Nat) : M c Unit (List Nat) Unit := do
  let s ← get
  let new ← buildEval c.popSize move
  let l ← draw (polarize (s.pop.map (·.sol)) (new.map (·.sol)))
  modExt (fun _ => l)
  setPop new

/-- one polarization per agent -/
def Ok (c : Cfg d K) (y : List Nat) : Prop := y.length = c.popSize

theorem dt_amend {x : Vec d K} : DT noErr (amend x : D c _) (fun _ => True) := by
  unfold amend; exact DT.bind DT.randomVec fun r _ => DT.pure trivial

theorem dt_init (hE : c.E.Lawful) : DT noErr (initVars : D c _) (Ok c) := by
  unfold initVars
  exact DT.mono (DT.repM (Q := fun _ => True) fun i _ => DT.bind (DT.integers hE (by omega)) fun k _ => DT.pure trivial) fun l hl => hl.1

theorem dt_step (hE : c.E.Lawful) {t : Nat} {s : St c Unit (List Nat)} {i : Nat} {x : Vec d K} (h2 : 2 ≤ c.popSize) (hl : s.pop.length = c.popSize) (hi : i < c.popSize) :
    DT noErr (step t s i x : D c _) (fun _ => True) := by
  unfold step
  refine DT.ite (fun _ => ?_) fun _ => DT.ite (fun _ => DT.bind DT.random' fun u _ => DT.pure trivial) fun _ => ?_
  · exact DT.bind (DT.pickWithout hE (by simp; omega)) fun r hr => DT.bind DT.random' fun u _ => DT.bind (DT.nth_mem (by omega)) fun y _ => DT.pure trivial
  · exact DT.bind DT.random' fun k _ => DT.bind (DT.choice1 hE (by omega)) fun b _ => DT.bind DT.random' fun u _ =>
      DT.ite (fun _ => DT.bind DT.random' fun v _ => DT.pure trivial) fun _ => DT.pure trivial

theorem dt_move (hE : c.E.Lawful) (hP : c.P.Lawful) {s : St c Unit (List Nat)} {i : Nat} (h2 : 2 ≤ c.popSize) (hl : s.pop.length = c.popSize) (hx : Ok c s.ext) (hi : i < c.popSize) :
    DT noErr (move s i : D c _) (MkOk (FA c) c) := by
  have hx' : s.ext.length = c.popSize := hx
  unfold move
  exact DT.bind (DT.nth_mem (by omega)) fun t _ => DT.bind (DT.nth_mem (by omega)) fun x _ => DT.bind (dt_step hE h2 hl hi) fun y _ => DT.bind (DT.correctWith hP dt_amend) fun pos hp => DT.pure (FA.mkOk hp)

theorem dt_polarize (hE : c.E.Lawful) (h2 : 2 ≤ c.popSize) {prev cur : List (Vec d K)} (h1 : prev.length = c.popSize) (h3 : cur.length = c.popSize) :
    DT noErr (polarize prev cur : D c _) (Ok c) := by
  unfold polarize
  have hmod : ∀ k : Int, (k % (c.popSize : Int)).toNat < c.popSize := fun k => by
    have := Int.emod_lt_of_pos k (b := (c.popSize : Int)) (by omega)
    have := Int.emod_nonneg k (b := (c.popSize : Int)) (by omega)
    omega
  refine DT.bind (DT.integers hE (by omega)) fun k1 _ => DT.bind (DT.integers hE (by omega)) fun k2' _ => ?_
  refine DT.bind (DT.repM (Q := fun _ => True) fun i hi => ?_) fun l1 hl1 => DT.bind (DT.repM (Q := fun _ => True) fun i hi => DT.bind (DT.integers hE (by omega)) fun a _ => DT.pure trivial) fun l2 hl2 => ?_
  · have g1 := hmod ((i : Int) - k1)
    have g2 := hmod ((i : Int) - (k1 + k2'))
    exact DT.bind (DT.nth_mem (by omega)) fun x _ => DT.bind (DT.nth_mem (by omega)) fun y _ => DT.pure trivial
  · have g1 := hl1.1
    have g2 := hl2.1
    exact DT.mono (DT.repM (Q := fun _ => True) fun i hi => DT.bind (DT.nth_mem (by omega)) fun r1 _ => DT.bind (DT.nth_mem (by omega)) fun r2 _ => DT.pure trivial) fun l hl => hl.1

/-- `OriginalMShOA` (`mealpy/swarm_based/MShOA.py:15-220`) -/
def algo : Algo c Unit (List Nat) := Algo.full false (fun _ => pure ()) initVars evolve

theorem ok (hE : c.E.Lawful) (hP : c.P.Lawful) (hc : Accepted c 5) :
    (algo : Algo c Unit (List Nat)).Ok (FA c) (Ok c) (Ok c) (Ok c) c.popSize c.popSize c.popSize := by
  have hpop := hc.pop
  unfold algo
  refine Algo.full_ok hE hP (fun x hx => by dgo) (J := (Ok c)) (by exact dt_init hE) (fun ep hep1 hep2 => ?_)
  unfold evolve
  refine PT.bind0 IT.get fun s hs => ?_
  have hl : s.pop.length = c.popSize := hs.len
  refine RT.pt (RT.bindS (RJ.buildEval hE fun s i hs hl hi => dt_move hE hP (by omega) hl hs.ext hi) le_rfl fun new hnew => ?_)
  refine RT.bind0 (RJ.draw (dt_polarize hE (by omega) (by rw [List.length_map]; exact hl) (by rw [List.length_map]; exact hnew.1))) fun l hl' => RT.bind0 (RJ.modExt fun y _ => hl') fun _ _ => ?_
  exact RT.weaken (RT.setPop hnew.1 (fun a ha => by simpa using ha) fun a ha => ⟨a, by simpa using ha, NoWorse.rfl⟩) (by omega) (by omega)

theorem framed (hE : c.E.Lawful) (ep : Nat) : Framed true (evolve ep : M c Unit (List Nat) Unit) := by
  unfold evolve; framed

end OriginalMShOA

namespace DevMShOA

/-- `before_main_loop` (`mealpy/swarm_based/MShOA.py:305-315`) -/
def before (s : St c Unit (List K)) : D c (List K) := repM c.popSize (fun _ => do
  let u ← random
  pure (clip (Num.ufunc "round" (1 + 2 * u)) 1 3))

/-- the type of an angle (`mealpy/swarm_based/MShOA.py:421-436`) -/
def kind (a : K) : K :=
  if 3 * Num.pi / 8 ≤ a ∧ a ≤ 5 * Num.pi / 8 then 1
  else if (0 ≤ a ∧ a ≤ Num.pi / 8) ∨ (7 * Num.pi / 8 ≤ a ∧ a ≤ Num.pi) then 2 else 3

/-- the angular difference (`mealpy/swarm_based/MShOA.py:447-474`) -/
def diff (a : K) : K :=
  if 0 ≤ a ∧ a ≤ Num.pi / 8 then a
  else if 7 * Num.pi / 8 ≤ a ∧ a ≤ Num.pi then Num.pi - a
  else if 3 * Num.pi / 8 ≤ a ∧ a ≤ 5 * Num.pi / 8 then Num.abs (Num.pi / 2 - a)
  else if Num.pi / 8 < a ∧ a < 3 * Num.pi / 8 then Num.abs (Num.pi / 4 - a)
  else Num.abs (3 * Num.pi / 4 - a)

/-- the random agents (`mealpy/swarm_based/MShOA.py:340-347`) -/
def partners : D c (List Nat) := do
  let l ← repM c.popSize (fun _ => index c.popSize)
  repM c.popSize (fun i => do
    let r ← nth l i
    if r = i then pickWithout c.popSize [i] else pure r)

/-- all new positions and types (`mealpy/swarm_based/MShOA.py:333-479`) -/
def plan (kv : K) (s : St c Unit (List K)) : D c (List (Vec d K × K)) := do
  let g := s.gbest.sol
  let ri ← partners
  let dd ← repM c.popSize (fun _ => uniform (-1) 1)
  let th ← repM c.popSize (fun _ => uniform Num.pi (2 * Num.pi))
  let ks ← repM c.popSize (fun _ => uniform 0 kv)
  let ds ← repM c.popSize (fun _ => random)
  let rp ← repM c.popSize (fun _ => random)
  repM c.popSize (fun i => do
    let t ← nth s.ext i
    let x ← nth s.pop i
    let k ← nth ri i
    let r ← nth s.pop k
    let D ← nth dd i
    let theta ← nth th i
    let kk ← nth ks i
    let def' ← nth ds i
    let u ← nth rp i
    let y : Vec d K := fun j =>
      if t = 3 then (if def' < 0.5 then g j + kk * g j else g j - kk * g j)
      else if t = 2 then g j * Num.cos theta
      else if t = 1 then g j - (x.sol j - g j) + D * (r.sol j - x.sol j)
      else x.sol j
    let dp := sumL (List.ofFn (fun j => x.sol j / (normV x.sol + 1e-10) * (y j / (normV y + 1e-10))))
    let lpa := Num.ufunc "arccos" (clip dp (-1) 1)
    let rpa := u * Num.pi
    pure (y, if diff lpa < diff rpa then kind lpa else kind rpa))

/-- `DevMShOA.evolve` (`mealpy/swarm_based/MShOA.py:317-493`) -/
def evolve (kv : K) (ep : Nat) : M c Unit (List K) Unit := do
  let s ← get
  let l ← draw (plan kv s)
  modExt (fun _ => l.map (·.2))
  let new ← buildEval c.popSize (fun _ i => do
    let q ← nth l i
    let pos ← correct q.1
    pure (pos, ()))
  setPop new

/-- one type per agent -/
def Ok (c : Cfg d K) (y : List K) : Prop := y.length = c.popSize

theorem dt_partners (hE : c.E.Lawful) (h2 : 2 ≤ c.popSize) : DT noErr (partners : D c _) (fun l => l.length = c.popSize ∧ ∀ k ∈ l, k < c.popSize) := by
  unfold partners
  refine DT.bind (DT.repM (Q := fun k => k < c.popSize) fun i hi => DT.index hE (by omega)) fun l hl => DT.repM fun i hi => ?_
  have h1 := hl.1
  refine DT.bind (DT.nth_mem (by omega)) fun r hr => DT.ite (fun _ => DT.mono (DT.pickWithout hE (by simp; omega)) fun k hk => ?_) fun _ => DT.pure (hl.2 r hr)
  exact hk.1

theorem dt_plan (hE : c.E.Lawful) (h2 : 2 ≤ c.popSize) {kv : K} {s : St c Unit (List K)} (hl : s.pop.length = c.popSize) (hx : Ok c s.ext) :
    DT noErr (plan kv s : D c _) (fun l => l.length = c.popSize) := by
  have hx' : s.ext.length = c.popSize := hx
  unfold plan
  refine DT.bind (dt_partners hE h2) fun ri hri => DT.bind (DT.repM (Q := fun _ => True) fun i _ => DT.uniform') fun dd h1 => DT.bind (DT.repM (Q := fun _ => True) fun i _ => DT.uniform') fun th h3 =>
    DT.bind (DT.repM (Q := fun _ => True) fun i _ => DT.uniform') fun ks h4 => DT.bind (DT.repM (Q := fun _ => True) fun i _ => DT.random') fun ds h5 => DT.bind (DT.repM (Q := fun _ => True) fun i _ => DT.random') fun rp h6 => ?_
  refine DT.mono (DT.repM (Q := fun _ => True) fun i hi => ?_) fun l hl => hl.1
  have g0 := hri.1
  have g1 := h1.1
  have g3 := h3.1
  have g4 := h4.1
  have g5 := h5.1
  have g6 := h6.1
  refine DT.bind (DT.nth_mem (by omega)) fun t _ => DT.bind (DT.nth_mem (by omega)) fun x _ => DT.bind (DT.nth_mem (by omega)) fun k hk => ?_
  have := hri.2 k hk
  exact DT.bind (DT.nth_mem (by omega)) fun r _ => DT.bind (DT.nth_mem (by omega)) fun D _ => DT.bind (DT.nth_mem (by omega)) fun th _ => DT.bind (DT.nth_mem (by omega)) fun kk _ =>
    DT.bind (DT.nth_mem (by omega)) fun df _ => DT.bind (DT.nth_mem (by omega)) fun u _ => DT.pure trivial

theorem dt_before {s : St c Unit (List K)} : DT noErr (before s : D c _) (Ok c) := by
  unfold before
  exact DT.mono (DT.repM (Q := fun _ => True) fun i _ => DT.bind DT.random' fun u _ => DT.pure trivial) fun l hl => hl.1

/-- `DevMShOA` (`mealpy/swarm_based/MShOA.py:223-493`) -/
def algo (p : K) : Algo c Unit (List K) := Algo.pre false (fun _ => pure ()) (pure []) before (evolve p)

theorem ok (hE : c.E.Lawful) (hP : c.P.Lawful) (hc : Accepted c 5) (p : K) :
    (algo p : Algo c Unit (List K)).Ok (FA c) JT JT (Ok c) c.popSize c.popSize c.popSize := by
  have hpop := hc.pop
  unfold algo
  refine Algo.pre_ok (J := (Ok c)) hE hP (fun x hx => by dgo) (by dgo) (by intro s hs; exact dt_before) (fun ep hep1 hep2 => ?_)
  unfold evolve
  refine PT.bind0 IT.get fun s hs => PT.bind0 (IT.draw (dt_plan hE (by omega) hs.len hs.ext)) fun l hl => ?_
  refine PT.bind0 (IT.modExt fun y _ => ?_) fun _ _ => ?_
  · exact (List.length_map ..).trans hl
  refine RT.pt (RT.bindS (RJ.buildEval hE fun s i hs hl' hi => ?_) le_rfl fun new hnew => ?_)
  · exact DT.bind (DT.nth_mem (by omega)) fun q _ => DT.bind (DT.correct hP) fun pos hp => DT.pure (FA.mkOk hp)
  exact RT.weaken (RT.setPop hnew.1 (fun a ha => by simpa using ha) fun a ha => ⟨a, by simpa using ha, NoWorse.rfl⟩) (by omega) (by omega)

theorem framed (hE : c.E.Lawful) (p : K) (ep : Nat) : Framed true (evolve p ep : M c Unit (List K) Unit) := by
  unfold evolve; framed

end DevMShOA

namespace OriginalSRSR

/-- `generate_agent` (`mealpy/swarm_based/SRSR.py:68-72`): `target_new` is the target of the agent; only its fitness is read -/
def mkExt (x : Vec d K) : D c K := pure (c.P.target x).fitness

/-- `np.max(...)` over the dimensions -/
def top (x : Vec d K) : K := maxL (List.ofFn x)

/-- a robot of the first phase (`mealpy/swarm_based/SRSR.py:106-121`); the attributes `mu` and `sigma` that lines 99-103 give the master are
overwritten -/
def walk (s : St c K K) (idx : Nat) : D c (Vec d K × K) := do
  let m ← nth s.pop 0
  let x ← nth s.pop idx
  let u ← uniform 0 1
  let st := s.ext * u
  let v ← uniform 0 1
  let y ← normalArr (fun j => 2 / 3 * m.sol j + (1 - 2 / 3) * x.sol j)
    (fun j => st * Num.abs (m.sol j - x.sol j) + v * v * (if m.sol j - x.sol j < 0.05 then 1 else 0))
  let pos ← correct y
  pure (pos, st)

/-- a robot keeps the better of both positions and remembers the new fitness (`mealpy/swarm_based/SRSR.py:126-133,164-171`) -/
def keep (mm : MinMax) (a b : Agent d K K) : Agent d K K :=
  if compareTarget b.tgt a.tgt mm then ⟨b.sol, b.tgt, b.fit⟩ else ⟨a.sol, a.tgt, b.fit⟩

/-- the new `SIF` (`mealpy/swarm_based/SRSR.py:137-142`) -/
def factor (pop : List (Agent d K K)) (sigma : List K) : D c K := do
  let k := argmaxL (pop.map (fun a => a.fit - a.ext))
  let u ← uniform 0 1
  let b ← nth sigma k
  let sif := (1 + u * top (fun j => c.P.ub j - c.P.lb j)) * b
  if top c.P.ub < sif then do
    let v ← uniform 0 1
    pure (top c.P.ub * v)
  else pure sif

/-- a robot of the second phase (`mealpy/swarm_based/SRSR.py:149-158`) -/
def roam (s : St c K K) (idx : Nat) : D c (Vec d K × K) := do
  let m ← nth s.pop 0
  let x ← nth s.pop idx
  let gb ← uniformVec (fun _ => -1) (fun _ => 1)
  let u ← uniform 0 1
  let w ← uniformVec c.P.lb c.P.ub
  let pos ← correct (fun j => x.sol j * u + (if 0 ≤ gb j then 1 else -1) * (m.sol j - x.sol j) + (c.P.ub j - c.P.lb j) * w j)
  pure (pos, x.ext)

/-- the dimensions `id_changed` keep the master's value (`mealpy/swarm_based/SRSR.py:189-192`) -/
def blend (m w : Vec d K) : D c (Vec d K) := do
  let u ← uniformVec c.P.lb c.P.ub
  pure (fun j => if Num.ufunc "round" (u j) ≠ 0 then m j else w j)

/-- integer part, fractional part (`mealpy/swarm_based/SRSR.py:183-184`) -/
def ip (x : K) : K := Num.ofInt (Num.floor (Num.abs x))
def fp (x : K) : K := Num.abs x - ip x

/-- the five worker robots (`mealpy/swarm_based/SRSR.py:180-225`) -/
def workers (m : Vec d K) : D c (List (Vec d K)) := do
  let k1 ← integers 1 4
  let w1 ← blend m (fun j => (ip (m j) + Num.pow (fp (m j)) (1 / (1 + ♯k1.toNat))) * Num.sign (m j))
  let k2 ← integers 1 4
  let w2 ← blend m (fun j => (ip (m j) + Num.pow (fp (m j)) (1 + ♯k2.toNat)) * Num.sign (m j))
  let perm ← permutation d
  let k3 ← integers 1 4
  let k4 ← integers 1 4
  let w3 ← blend m (fun j => if j.val ∈ perm.take (d / 2) then (ip (m j) + Num.pow (fp (m j)) (1 / (1 + ♯k3.toNat))) * Num.sign (m j)
    else (ip (m j) + Num.pow (fp (m j)) (1 + ♯k4.toNat)) * Num.sign (m j))
  let w4 ← blend m (fun j => Num.ofInt (Num.ceil (Num.abs (m j))) * Num.sign (m j))
  let w5 ← blend m (fun j => ip (m j) * Num.sign (m j))
  pure [w1, w2, w3, w4, w5]

/-- the workers replace the last robots (`mealpy/swarm_based/SRSR.py:235-238`) -/
def place (ws : List (Agent d K K)) : M c K K Unit :=
  iter 5 (fun i _ => do
    let w ← draw (nth ws i)
    let x ← popAt 1
    if compareTarget w.tgt x.tgt c.P.mm then do
      let old ← popAt (c.popSize - 1 - i)
      setAt (c.popSize - 1 - i) ⟨w.sol, w.tgt, old.ext⟩
    else pure ()) ()

/-- `OriginalSRSR.evolve` (`mealpy/swarm_based/SRSR.py:88-238`). In `single` mode the draws of the first phase alternate with the evaluations;
an evaluation uses no random numbers, so all draws are made first here. -/
def evolve (ep : Nat) : M c K K Unit := do
  let _ ← draw (uniform 0 1)
  let s ← get
  let ps ← draw (repM c.popSize (walk s))
  let new ← buildEval c.popSize (fun _ i => do
    let q ← nth ps i
    pure (q.1, 0))
  setPop (List.zipWith (keep c.P.mm) s.pop new)
  let sif ← draw (factor s.pop (ps.map (·.2)))
  modExt (fun _ => sif)
  let s2 ← get
  let new2 ← buildEval c.popSize roam
  setPop (List.zipWith (keep c.P.mm) s2.pop new2)
  let m ← popAt 0
  let ws ← draw (workers m.sol)
  let wa ← buildEval 5 (fun _ i => do
    let w ← nth ws i
    let pos ← correct w
    pure (pos, 0))
  place wa

/-- what keeps the standard deviations from becoming negative: the usual laws of arithmetic, and an upper bound that is not negative -/
structure Calm (c : Cfg d K) : Prop where
  mul : ∀ a b : K, 0 ≤ a → 0 ≤ b → 0 ≤ a * b
  add : ∀ a b : K, 0 ≤ a → 0 ≤ b → 0 ≤ a + b
  abs : ∀ a : K, 0 ≤ Num.abs a
  one : (0 : K) ≤ 1
  two : (0 : K) ≤ 2
  width : 0 ≤ top (fun j => c.P.ub j - c.P.lb j)
  upper : 0 ≤ top c.P.ub

/-- the factor is not negative -/
def Ok (y : K) : Prop := 0 ≤ y

theorem dt_walk (hE : c.E.Lawful) (hP : c.P.Lawful) (hk : Calm c) {s : St c K K} {i : Nat} (hl : s.pop.length = c.popSize) (hx : Ok s.ext) (hi : i < c.popSize) :
    DT noErr (walk s i : D c _) (fun q => Feas c q.1 ∧ 0 ≤ q.2) := by
  unfold walk
  refine DT.bind (DT.nth_mem (by omega)) fun m _ => DT.bind (DT.nth_mem (by omega)) fun x _ => DT.bind (DT.uniform hE hk.one) fun u hu => DT.bind (DT.uniform hE hk.one) fun v hv => ?_
  have h1 : 0 ≤ s.ext * u := hk.mul _ _ hx hu.1
  refine DT.bind (DT.normalArr fun j => ?_) fun y _ => DT.bind (DT.correct hP) fun pos hp => DT.pure ⟨hp, h1⟩
  refine hk.add _ _ (hk.mul _ _ h1 (hk.abs _)) (hk.mul _ _ (hk.mul _ _ hv.1 hv.1) ?_)
  split
  · exact hk.one
  · exact le_rfl

theorem dt_factor (hE : c.E.Lawful) (hk : Calm c) {pop : List (Agent d K K)} {sigma : List K} (h0 : 0 < c.popSize) (h1 : pop.length = c.popSize) (h2 : sigma.length = c.popSize) (h3 : ∀ a ∈ sigma, 0 ≤ a) :
    DT noErr (factor pop sigma : D c _) Ok := by
  unfold factor
  refine DT.bind (DT.uniform hE hk.one) fun u hu => DT.bind (DT.nth_mem ?_) fun b hb => DT.ite (fun _ => DT.bind (DT.uniform hE hk.one) fun v hv => DT.pure (hk.mul _ _ hk.upper hv.1)) fun _ => DT.pure ?_
  · have := argmaxL_lt (l := pop.map (fun a => a.fit - a.ext)) (by rw [List.length_map]; omega)
    rw [List.length_map] at this
    omega
  · exact hk.mul _ _ (hk.add _ _ hk.one (hk.mul _ _ hu.1 hk.width)) (h3 b hb)

theorem dt_roam (hP : c.P.Lawful) {s : St c K K} {i : Nat} (hl : s.pop.length = c.popSize) (hi : i < c.popSize) : DT noErr (roam s i : D c _) (fun q => Feas c q.1) := by
  unfold roam
  exact DT.bind (DT.nth_mem (by omega)) fun m _ => DT.bind (DT.nth_mem (by omega)) fun x _ => DT.bind DT.uniformVec' fun gb _ => DT.bind DT.uniform' fun u _ => DT.bind DT.uniformVec' fun w _ =>
    DT.bind (DT.correct hP) fun pos hp => DT.pure hp

theorem dt_blend {m w : Vec d K} : DT noErr (blend m w : D c _) (fun _ => True) := by
  unfold blend; exact DT.bind DT.uniformVec' fun u _ => DT.pure trivial

theorem dt_workers (hE : c.E.Lawful) {m : Vec d K} : DT noErr (workers m : D c _) (fun l => l.length = 5) := by
  unfold workers
  exact DT.bind (DT.integers hE (by omega)) fun k1 _ => DT.bind dt_blend fun w1 _ => DT.bind (DT.integers hE (by omega)) fun k2 _ => DT.bind dt_blend fun w2 _ => DT.bind (DT.permutation' hE) fun pm _ =>
    DT.bind (DT.integers hE (by omega)) fun k3 _ => DT.bind (DT.integers hE (by omega)) fun k4 _ => DT.bind dt_blend fun w3 _ => DT.bind dt_blend fun w4 _ => DT.bind dt_blend fun w5 _ => DT.pure rfl

theorem keep_cf {mm : MinMax} {a b : Agent d K K} (ha : CF c a) (hb : CF c b) : CF c (keep mm a b) := by
  unfold keep
  split
  · exact hb
  · exact ha

theorem wt_keep {pop new : List (Agent d K K)} (h1 : pop.length = c.popSize) (h2 : new.length = c.popSize) (h3 : ∀ a ∈ pop, (Inv.std c K (Ok : K → Prop)).Ag a) (h4 : ∀ a ∈ new, (Inv.std c K (Ok : K → Prop)).Ag a) :
    WT noErr (Inv.std c K Ok) 0 0 (setPop (List.zipWith (keep c.P.mm) pop new) : M c K K Unit) (fun _ => True) := by
  refine WT.setPop ?_ fun a ha => ?_
  · change (List.zipWith (keep c.P.mm) pop new).length = c.popSize
    rw [List.length_zipWith, h1, h2, Nat.min_self]
  · obtain ⟨x, hx, y, hy, rfl⟩ := mem_zipWith' ha
    exact Inv.std_ag (keep_cf ⟨(h3 x hx).1, (h3 x hx).2⟩ ⟨(h4 y hy).1, (h4 y hy).2⟩)

theorem wt_place (h5 : 5 ≤ c.popSize) {ws : List (Agent d K K)} (hl : ws.length = 5) (hw : ∀ a ∈ ws, (Inv.std c K (Ok : K → Prop)).Ag a) :
    WT noErr (Inv.std c K Ok) 0 0 (place ws : M c K K Unit) (fun _ => True) := by
  unfold place
  refine WT.iterU 0 0 (by omega) (by omega) fun i hi => WT.bind0 (WT.draw (DT.nth_mem (by omega))) fun w hw' => WT.bind0 (WT.popAt (by wsz)) fun x _ => WT.ite (fun _ => ?_) fun _ => WT.pure trivial
  exact WT.bind0 (WT.popAt (by wsz)) fun old _ => WT.setAt (by wsz) (Inv.std_ag ⟨(hw w hw').1, (hw w hw').2⟩)

theorem framed_place {ws : List (Agent d K K)} : Framed true (place ws : M c K K Unit) := by
  unfold place; framed

macro_rules
  | `(tactic| fprim) => `(tactic| (at_last OriginalSRSR.place; exact OriginalSRSR.framed_place))

theorem dt_mkExt {x : Vec d K} : DT noErr (mkExt x : D c _) (fun _ => True) := DT.pure trivial

macro_rules
  | `(tactic| dprim) => `(tactic| exact OriginalSRSR.dt_mkExt)

/-- `OriginalSRSR` (`mealpy/swarm_based/SRSR.py:13-238`) -/
def algo : Algo c K K := Algo.full true mkExt (pure 2) evolve

theorem wok (hE : c.E.Lawful) (hP : c.P.Lawful) (hc : Accepted c 5) (hk : Calm c) :
    (algo : Algo c K K).WOk noErr (Inv.std c K (Ok : K → Prop)) (Ok : K → Prop) (Ok : K → Prop) c.popSize c.popSize 0 0 (c.popSize + c.popSize + 5) (c.popSize + c.popSize + 5) := by
  have hpop := hc.pop
  unfold algo
  refine Algo.full_wok hE hP (by omega) (fun x hx => by dgo) (J := (Ok : K → Prop)) (by exact DT.pure hk.two) (fun ep hep1 hep2 => ?_)
  unfold evolve
  refine WT.bind0 (WT.draw DT.uniform') fun _ _ => WT.bind0 WT.get fun s hs => ?_
  refine WT.bind0 (WT.draw (DT.repM fun i hi => dt_walk hE hP hk hs.len hs.ext hi)) fun ps hps => ?_
  refine WT.bindS (WT.buildEval hE fun s i hs hi => ?_) (by omega) fun new hnew => ?_
  · have := hps.1
    exact DT.bind (DT.nth_mem (by omega)) fun q hq => DT.pure (Inv.std_mk (hps.2 q hq).1)
  refine WT.bind0 (wt_keep hs.len hnew.1 hs.pop hnew.2) fun _ _ => WT.bind0 (WT.draw (dt_factor hE hk (by omega) hs.len (by rw [List.length_map]; exact hps.1) ?_)) fun sif hsif => WT.bind0 (WT.modExt fun y _ => hsif) fun _ _ => ?_
  · intro a ha
    obtain ⟨q, hq, rfl⟩ := List.mem_map.1 ha
    exact (hps.2 q hq).2
  refine WT.bind0 WT.get fun s2 hs2 => WT.bindS (WT.buildEval hE fun s i hs hi => DT.mono (dt_roam hP hs.len hi) fun q hq => Inv.std_mk hq) (by omega) fun new2 hnew2 => ?_
  refine WT.bind0 (wt_keep hs2.len hnew2.1 hs2.pop hnew2.2) fun _ _ => WT.bind0 (WT.popAt (by wsz)) fun m _ => WT.bind0 (WT.draw (dt_workers hE)) fun ws hws => ?_
  refine WT.bindS (WT.buildEval hE fun s i hs hi => ?_) (by omega) fun wa hwa => WT.weaken (wt_place (by omega) hwa.1 hwa.2) (by omega) (by omega)
  exact DT.bind (DT.nth_mem (by omega)) fun w _ => DT.bind (DT.correct hP) fun pos hp => DT.pure (Inv.std_mk hp)

theorem framed (hE : c.E.Lawful) (ep : Nat) : Framed true (evolve ep : M c K K Unit) := by
  unfold evolve; framed

end OriginalSRSR

end Mealpy
