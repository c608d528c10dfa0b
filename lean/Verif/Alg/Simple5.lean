import Verif.Alg.Kit6

/-! # Simple optimizers, part 5

`CA.py`, `MGO.py`, `NGO.py`, `SeaHO.py`, `STO.py`, `OSA.py`, `TSeedA.py`, `OOA.py`, `MSA.py`, `EVO.py`, `FFO.py`, `CoatiOA.py`, `FHO.py`,
`SBOA.py`, `RFO.py`, `TSO.py`, `TOA.py`, `HGS.py`, `HHO.py`, `ZOA.py`, `AVOA.py`, `TDO.py` -/

set_option linter.unusedSectionVars false
set_option linter.unusedVariables false

namespace Mealpy
open Spec

variable {d : Nat} {K : Type} [Num K] {c : Cfg d K}
namespace OriginalCA

/-- `dyn_accepted_num = int(accepted_rate * pop_size)` (`mealpy/human_based/CA.py:63,74`) -/
structure Params where
  nAcc : Nat

/-- `update_belief_space__` (`mealpy/human_based/CA.py:81-85`) -/
def belief (acc : List (Agent d K Unit)) : Vec d K × Vec d K :=
  (fun j => minL (acc.map (fun a => a.sol j)), fun j => maxL (acc.map (fun a => a.sol j)))

/-- the tournaments (`mealpy/human_based/CA.py:98-103`) -/
def duels (full : List (Agent d K Unit)) : D c (List (Agent d K Unit)) :=
  repM c.popSize (fun _ => do
    let (i, j) ← choose2 full.length
    let a ← nth full i
    let b ← nth full j
    pure (getBetterAgent a b c.P.mm))

/-- `OriginalCA.evolve` (`mealpy/human_based/CA.py:87-108`) with `initialize_variables` (68-75) and `create_faithful__` (77-79). The children
are not corrected. `np.min` of no accepted agents raises `ValueError`. -/
def evolve (p : Params) (ep : Nat) : M c Unit (Vec d K × Vec d K) Unit := do
  let s ← get
  let y := s.ext
  let child ← spawn c.popSize (fun _ => pure ()) (fun _ => uniformVec y.1 y.2)
  let new ← draw (duels (s.pop ++ child))
  let sorted ← draw (sortedPop new)
  setPop sorted
  if sorted.take p.nAcc = [] then mthrow .value else modExt (fun _ => belief (sorted.take p.nAcc))

/-- the belief space is a box inside the bounds -/
def Sub (c : Cfg d K) (y : Vec d K × Vec d K) : Prop := ∀ j, c.P.lb j ≤ y.1 j ∧ y.1 j ≤ y.2 j ∧ y.2 j ≤ c.P.ub j

theorem dt_duels {Er : Err → Prop} (hE : c.E.Lawful) {full : List (Agent d K Unit)} (h2 : 2 ≤ full.length) (h : ∀ a ∈ full, CF c a) :
    DT Er (duels full : D c (List (Agent d K Unit))) (fun l => l.length = c.popSize ∧ ∀ a ∈ l, CF c a) := by
  unfold duels
  refine DT.repM fun i hi => DT.bind (DT.choose2 hE h2) ?_
  rintro ⟨i, j⟩ ⟨hi, hj, -⟩
  exact DT.bind (DT.nth_mem hi) fun a ha => DT.bind (DT.nth_mem hj) fun b hb => DT.pure (CF.better (h a ha) (h b hb))

theorem sub_belief {acc : List (Agent d K Unit)} (hne : acc ≠ []) (h : ∀ a ∈ acc, CF c a) : Sub c (belief acc) := by
  intro j
  have hl : 0 < (acc.map (fun a => a.sol j)).length := by rw [List.length_map]; exact List.length_pos_iff.2 hne
  have h1 := minL_spec hl
  have h2 := maxL_spec hl
  have hb : ∀ x ∈ acc.map (fun a => a.sol j), c.P.lb j ≤ x ∧ x ≤ c.P.ub j := by
    intro x hx
    obtain ⟨a, ha, rfl⟩ := List.mem_map.1 hx
    exact (h a ha).2 j
  exact ⟨(hb _ h1.1).1, h2.2 _ h1.1, (hb _ h2.1).2⟩

/-- `OriginalCA` (`mealpy/human_based/CA.py:12-108`) -/
def algo (p : Params) : Algo c Unit (Vec d K × Vec d K) := Algo.full true (fun _ => pure ()) (pure (c.P.lb, c.P.ub)) (evolve p)

theorem wok (hE : c.E.Lawful) (hP : c.P.Lawful) (hc : Accepted c 5) (p : Params) (hn : 1 ≤ p.nAcc) :
    (algo p : Algo c Unit (Vec d K × Vec d K)).WOk noErr (Inv.std c Unit (OriginalCA.Sub c)) (OriginalCA.Sub c) (OriginalCA.Sub c) c.popSize c.popSize 0 0 c.popSize c.popSize := by
  have hpop := hc.pop
  unfold algo
  refine Algo.full_wok hE hP (by omega) (fun x hx => by dgo) (J := (OriginalCA.Sub c)) (by intro g; exact DT.pure (fun j => ⟨le_rfl, le_trans (hP.generate_in g.2 j).1 (hP.generate_in g.2 j).2, le_rfl⟩) g) (fun ep hep1 hep2 => ?_)
  unfold evolve
  refine WT.bind0 WT.get fun s hs => ?_
  have hlen : s.pop.length = c.popSize := hs.len
  have hy : Sub c s.ext := hs.ext
  refine WT.bindS (WT.spawn (I := Inv.std c Unit (Sub c)) (fun x hx => DT.pure (Inv.std_mk hx)) fun i hi => ?_) (by omega) fun child hc' => ?_
  · refine DT.mono (DT.vecM (Q := fun j x => s.ext.1 j ≤ x ∧ x ≤ s.ext.2 j) (fun j => DT.uniform hE (hy j).2.1)) fun x hx => ?_
    exact fun j => ⟨le_trans (hy j).1 (hx j).1, le_trans (hx j).2 (hy j).2.2⟩
  · refine WT.bind0 (WT.draw (dt_duels hE (by simp; omega) fun a ha => ?_)) fun new hn1 => ?_
    · rcases List.mem_append.1 ha with h | h
      · exact hs.pop a h
      · exact hc'.2 a h
    · refine WT.bind0 (WT.draw (DT.sortedPop' hE)) fun sorted hso => ?_
      have hcf : ∀ a ∈ sorted, CF c a := fun a ha => hn1.2 a ((hso.2.1 a).1 ha)
      refine WT.bind0 (WT.setPop (I := Inv.std c Unit (Sub c)) (by change _ = c.popSize; omega) hcf) fun _ _ => ?_
      refine WT.ite (fun h => absurd h ?_) fun hne => WT.weaken (WT.modExt fun y hy => ?_) (by omega) (by omega)
      · have : (sorted.take p.nAcc).length ≠ 0 := by rw [List.length_take]; omega
        exact fun h => this (by rw [h]; rfl)
      · exact sub_belief hne fun a ha => hcf a (List.mem_of_mem_take ha)

theorem framed (hE : c.E.Lawful) (p : Params) (ep : Nat) : Framed true (evolve p ep : M c Unit (Vec d K × Vec d K) Unit) := by
  unfold evolve; framed

end OriginalCA

namespace OriginalMGO

/-- `coefficient_vector__` (`mealpy/swarm_based/MGO.py:63-72`) -/
def coef (ep : Nat) : D c (List (Vec d K)) := do
  let a2 : K := -1 + ♯ep * (-1 / ♯c.epoch)
  let u ← normalVec 0 1
  let v ← normalVec 0 1
  let r0 ← randomVec
  let r1 ← random
  let n2 ← normalVec 0 1
  let r3 ← random
  pure [r0, fun _ => (a2 + 1) + r1, fun j => a2 * n2 j, fun j => u j * (v j * v j) * Num.cos ((r3 * 2) * u j)]

theorem dt_coef {Er : Err → Prop} {ep : Nat} : DT Er (coef ep : D c (List (Vec d K))) (fun l => l.length = 4) := by
  unfold coef
  refine DT.bind DT.normalVec fun u _ => DT.bind DT.normalVec fun v _ => DT.bind DT.randomVec fun r0 _ => DT.bind DT.random' fun r1 _ => ?_
  exact DT.bind DT.normalVec fun n2 _ => DT.bind DT.random' fun r3 _ => DT.pure rfl

/-- the four agents made for one gazelle (`mealpy/swarm_based/MGO.py:83-107`) -/
def kids (ep : Nat) (s : St c Unit Unit) (idx : Nat) : D c (List (Vec d K × Unit)) := do
  let g := s.gbest.sol
  let n3 := (c.popSize + 2) / 3
  let per ← permutation c.popSize
  let ids := per.take n3
  let near : Vec d K := fun j => meanL ((picks s.pop ids).map (fun a => a.sol j))
  let ir ← integers n3 c.popSize
  let xr ← nth s.pop ir.toNat
  let z1 ← normal 0 1
  let z2 ← normal 0 1
  let M : Vec d K := fun j => xr.sol j * Num.ofInt (Num.floor z1) + near j * Num.ofInt (Num.ceil z2)
  let cofi ← coef ep
  let za ← normalVec 0 1
  let A : Vec d K := fun j => za j * Num.exp (2 - ♯ep * (2 / ♯c.epoch))
  let x ← nth s.pop idx
  let r ← random
  let D : Vec d K := fun j => (Num.abs (x.sol j) + Num.abs (g j)) * (2 * r - 1)
  let i1 ← integers 1 3
  let i2 ← integers 1 3
  let k1 ← index 4
  let c1 ← nth cofi k1
  let k2 ← index 4
  let c2 ← nth cofi k2
  let i3 ← integers 1 3
  let i4 ← integers 1 3
  let iy ← index c.popSize
  let y ← nth s.pop iy
  let k3 ← index 4
  let c3 ← nth cofi k3
  let i5 ← integers 1 3
  let i6 ← integers 1 3
  let k4 ← index 4
  let c4 ← nth cofi k4
  let x1 ← genSolution
  let p1 ← correct x1
  let p2 ← correct (fun j => g j - Num.abs ((Num.ofInt i1 * M j - Num.ofInt i2 * x.sol j) * A j) * c1 j)
  let p3 ← correct (fun j => M j + c2 j + (Num.ofInt i3 * g j - Num.ofInt i4 * y.sol j) * c3 j)
  let p4 ← correct (fun j => x.sol j - D j + (Num.ofInt i5 * g j - Num.ofInt i6 * M j) * c4 j)
  pure [(p1, ()), (p2, ()), (p3, ()), (p4, ())]

theorem dt_kids (hE : c.E.Lawful) (hP : c.P.Lawful) (hpop : 5 ≤ c.popSize) {ep : Nat} {s : St c Unit Unit} (hl : s.pop.length = c.popSize)
    {idx : Nat} (hi : idx < c.popSize) : DT noErr (kids ep s idx : D c (List (Vec d K × Unit)))
      (fun l => (4 ≤ l.length ∧ l.length ≤ 4) ∧ ∀ p ∈ l, MkOk (FA c) c p) := by
  unfold kids
  refine DT.bind (DT.permutation' hE) fun per _ => DT.bind (DT.integers hE (by omega)) fun ir hir => ?_
  refine DT.bind (DT.nth_mem (by omega)) fun xr _ => DT.bind DT.normal fun z1 _ => DT.bind DT.normal fun z2 _ => ?_
  refine DT.bind dt_coef fun cofi hco => DT.bind DT.normalVec fun za _ => DT.bind (DT.nth_mem (by omega)) fun x _ => DT.bind DT.random' fun r _ => ?_
  refine DT.bind (DT.integers hE (by omega)) fun i1 _ => DT.bind (DT.integers hE (by omega)) fun i2 _ => ?_
  refine DT.bind (DT.index hE (by omega)) fun k1 _ => DT.bind (DT.nth_mem (by omega)) fun c1 _ => ?_
  refine DT.bind (DT.index hE (by omega)) fun k2 _ => DT.bind (DT.nth_mem (by omega)) fun c2 _ => ?_
  refine DT.bind (DT.integers hE (by omega)) fun i3 _ => DT.bind (DT.integers hE (by omega)) fun i4 _ => ?_
  refine DT.bind (DT.index hE (by omega)) fun iy _ => DT.bind (DT.nth_mem (by omega)) fun y _ => ?_
  refine DT.bind (DT.index hE (by omega)) fun k3 _ => DT.bind (DT.nth_mem (by omega)) fun c3 _ => ?_
  refine DT.bind (DT.integers hE (by omega)) fun i5 _ => DT.bind (DT.integers hE (by omega)) fun i6 _ => ?_
  refine DT.bind (DT.index hE (by omega)) fun k4 _ => DT.bind (DT.nth_mem (by omega)) fun c4 _ => ?_
  refine DT.bindT (by dgo) fun x1 => DT.bind (DT.correct hP) fun p1 h1 => DT.bind (DT.correct hP) fun p2 h2 => ?_
  refine DT.bind (DT.correct hP) fun p3 h3 => DT.bind (DT.correct hP) fun p4 h4 => DT.pure ⟨⟨by simp, by simp⟩, ?_⟩
  simp only [List.mem_cons, List.not_mem_nil, or_false, forall_eq_or_imp, forall_eq]
  exact ⟨FA.mkOk h1, FA.mkOk h2, FA.mkOk h3, FA.mkOk h4⟩

/-- `OriginalMGO.evolve` (`mealpy/swarm_based/MGO.py:74-115`) -/
def evolve (ep : Nat) : M c Unit Unit Unit := do
  let new ← buildEvalL c.popSize (kids ep)
  mergeTrim c.popSize ([] ++ new)

/-- `OriginalMGO` (`mealpy/swarm_based/MGO.py:12-115`) -/
def algo : Algo c Unit Unit := Algo.plain true evolve

theorem ok (hE : c.E.Lawful) (hP : c.P.Lawful) (hc : Accepted c 5) :
    (algo : Algo c Unit Unit).Ok (FA c) JT JT JT c.popSize (c.popSize * 4) (c.popSize * 4) := by
  plainalg hE hP hc evolve
  refine IT.pt (HJ.it ?_)
  refine HJ.bindS (HJ.buildEvalL (k1 := 4) (k2 := 4) hE fun s i hs hl hi => dt_kids hE hP hc.pop.1 hl hi) (by omega) fun new hn => ?_
  exact HJ.weaken (HJ.mergeTrim hE (by omega)) (by omega) (by omega)

theorem framed (hE : c.E.Lawful) (ep : Nat) : Framed true (evolve ep : M c Unit Unit Unit) := by
  unfold evolve; framed

end OriginalMGO

namespace OriginalNGO

/-- one goshawk (`mealpy/swarm_based/NGO.py:95-111`); the first comparison ignores `minmax` -/
def round (ep idx : Nat) : M c Unit Unit Unit := do
  let s ← get
  let per ← draw (permutation c.popSize)
  let kk ← draw (nth per 0)
  let y ← draw (nth s.pop kk)
  let x ← draw (nth s.pop idx)
  let r ← draw randomVec
  let i ← draw (if compareTarget y.tgt x.tgt .min then integers 1 3 else pure 0 : D c Int)
  let pos ← draw (correct (fun j => if compareTarget y.tgt x.tgt .min then x.sol j + r j * (y.sol j - Num.ofInt i * x.sol j)
    else x.sol j + r j * (x.sol j - y.sol j)))
  tryCompare (fun _ => pure ()) idx pos
  let s ← get
  let x ← draw (nth s.pop idx)
  let R : K := 0.02 * (1 - ♯ep / ♯c.epoch)
  let r ← draw randomVec
  let pos ← draw (correct (fun j => x.sol j + (-R + 2 * R * r j) * x.sol j))
  tryCompare (fun _ => pure ()) idx pos

theorem it_round (hE : c.E.Lawful) (hP : c.P.Lawful) (hpop : 5 ≤ c.popSize) {ep idx : Nat} (hi : idx < c.popSize) :
    IT (FA c) JT 2 2 (round ep idx : M c Unit Unit Unit) (fun _ => True) := by
  unfold round
  refine IT.bind0 IT.get fun s hs => ?_
  have hlen := hs.toGoodPop.len
  refine IT.bind0 (IT.draw (DT.permutation' hE)) fun per hper => IT.bind0 (IT.draw (DT.nth_mem (by omega))) fun kk hkk => ?_
  refine IT.bind0 (IT.draw (DT.nth_mem (by have := hper.2 kk hkk; omega))) fun y _ => ?_
  iwalk

theorem framed_round {ep idx : Nat} : Framed true (round ep idx : M c Unit Unit Unit) := by
  unfold round; framed

macro_rules
  | `(tactic| fprim) => `(tactic| (at_last OriginalNGO.round; exact OriginalNGO.framed_round))

/-- `OriginalNGO.evolve` (`mealpy/swarm_based/NGO.py:84-111`) -/
def evolve (ep : Nat) : M c Unit Unit Unit := iter c.popSize (fun idx _ => round ep idx) ()

/-- `OriginalNGO` (`mealpy/swarm_based/NGO.py:11-111`) -/
def algo : Algo c Unit Unit := Algo.plain false evolve

theorem ok (hE : c.E.Lawful) (hP : c.P.Lawful) (hc : Accepted c 5) :
    (algo : Algo c Unit Unit).Ok (FA c) JT JT JT c.popSize (c.popSize * 2) (c.popSize * 2) := by
  plainalg hE hP hc evolve
  exact IT.pt (IT.iterS 2 2 (by omega) (by omega) fun i hi => it_round hE hP hc.pop.1 hi)

theorem framed (hE : c.E.Lawful) (ep : Nat) : Framed true (evolve ep : M c Unit Unit Unit) := by
  unfold evolve; framed

end OriginalNGO

namespace OriginalSeaHO

/-- the first moves (`mealpy/swarm_based/SeaHO.py:75-87`), `uu = vv = ll = 0.05` -/
def moves (s : St c Unit Unit) : D c (List (Vec d K)) := do
  let g := s.gbest.sol
  let steps ← levyRows c.popSize 1.5 0.01
  repM c.popSize (fun idx => do
    let beta ← normalVec 0 1
    let th ← randomVec
    let x ← nth s.pop idx
    let st ← nth steps idx
    let z ← normal 0 1
    let r ← randomVec
    correct (fun j =>
      let theta : K := 2 * Num.pi * th j
      let row : K := 0.05 * Num.exp (theta * 0.05)
      if z > 0 then x.sol j + st j * ((g j - x.sol j) * (row * Num.cos theta) * (row * Num.sin theta) * (row * theta) + g j)
      else x.sol j + r j * 0.05 * beta j * (g j - beta j * g j)))

theorem dt_moves (hE : c.E.Lawful) (hP : c.P.Lawful) {s : St c Unit Unit} (hl : s.pop.length = c.popSize) :
    DT noErr (moves s : D c (List (Vec d K))) (fun l => l.length = c.popSize) := by
  unfold moves
  refine DT.bind DT.levyRows fun steps hst => DT.repMT fun i hi => ?_
  dgo

/-- `OriginalSeaHO.evolve` (`mealpy/swarm_based/SeaHO.py:67-122`): the new population consists of new agents only -/
def evolve (ep : Nat) : M c Unit Unit Unit := do
  let s ← get
  let pos ← draw (moves s)
  let alpha : K := Num.pow (1 - ♯ep / ♯c.epoch) (2 * ♯ep / ♯c.epoch)
  let child ← buildEval c.popSize (fun s idx => do
    let g := s.gbest.sol
    let r1 ← randomVec
    let r ← random
    let x ← nth pos idx
    let y ← correct (fun j => if r ≥ 0.1 then alpha * (g j - r1 j * x j) + (1 - alpha) * g j
      else (1 - alpha) * (x j - r1 j * g j) + alpha * x j)
    pure (y, ()))
  let sorted ← draw (sortedPop child)
  let off ← buildEval (c.popSize / 2) (fun _ kdx => do
    let r3 ← random
    let a ← nth (sorted.take (c.popSize / 2)) kdx
    let b ← nth (sorted.drop (c.popSize / 2)) kdx
    let y ← correct (fun j => r3 * a.sol j + (1 - r3) * b.sol j)
    pure (y, ()))
  setPop (getSortedTrimmed c.E.argsort (sorted ++ off) c.popSize c.P.mm)

/-- `OriginalSeaHO` (`mealpy/swarm_based/SeaHO.py:12-122`) -/
def algo : Algo c Unit Unit := Algo.plain false evolve

theorem ok (hE : c.E.Lawful) (hP : c.P.Lawful) (hc : Accepted c 5) :
    (algo : Algo c Unit Unit).Ok (FA c) JT JT JT c.popSize (c.popSize + c.popSize / 2) (c.popSize + c.popSize / 2) := by
  plainalg hE hP hc evolve
  refine RT.pt (RT.bind0 RJ.get fun s hs => ?_)
  have hlen := hs.toGoodPop.len
  refine RT.bind0 (RJ.draw (dt_moves hE hP hlen)) fun pos hpl => RT.bindS (RJ.buildEval hE (by mkgo)) (by omega) fun child hch => ?_
  refine RT.bind0 (RJ.draw (DT.sortedPop' hE)) fun sorted hso => ?_
  have h1 : (sorted.take (c.popSize / 2)).length = c.popSize / 2 := by rw [List.length_take]; omega
  have h2 : (sorted.drop (c.popSize / 2)).length = c.popSize - c.popSize / 2 := by rw [List.length_drop]; omega
  refine RT.bindS (RJ.buildEval hE (by mkgo)) (by omega) fun off hoff => ?_
  have hm : ∀ a : Agent d K Unit, a ∈ sorted ++ off ↔ a ∈ ([] ++ child) ++ off := fun a => by
    simp only [List.nil_append, List.mem_append, hso.2.1]
  refine RT.weaken (RT.setPop ?_ (fun a ha => (hm a).1 (trimmed_mem hE ha)) fun a ha => ?_) (by omega) (by omega)
  · rw [trimmed_length hE, List.length_append]; omega
  · exact trimmed_cover hE (by omega) ((hm a).2 ha)

theorem framed (hE : c.E.Lawful) (ep : Nat) : Framed true (evolve ep : M c Unit Unit Unit) := by
  unfold evolve; framed

end OriginalSeaHO

namespace OriginalSTO

/-- the tern another one follows: the global best, or now and then a better member (`mealpy/swarm_based/STO.py:79-104`,
`mealpy/swarm_based/OOA.py:81-106`) -/
def leader (s : St c Unit Unit) (x : Agent d K Unit) : D c (Agent d K Unit) :=
  let l := betterThan c.P.mm s.pop x.fit
  if l = [] then pure s.gbest else do
    let r ← random
    if r < 0.5 then pure s.gbest else pickPerm l

theorem dt_leader {Er : Err → Prop} (hE : c.E.Lawful) {s : St c Unit Unit} {x : Agent d K Unit} :
    DT Er (leader s x : D c (Agent d K Unit)) (fun _ => True) := by
  unfold leader
  refine DT.ite (fun _ => DT.pure trivial) fun h => DT.bind DT.random' fun r _ => DT.ite (fun _ => DT.pure trivial) fun _ => ?_
  exact DT.mono (DT.pickPerm hE (List.length_pos_iff.2 h)) fun _ _ => trivial

macro_rules
  | `(tactic| dprim) => `(tactic| (at_head OriginalSTO.leader; exact OriginalSTO.dt_leader (by assumption)))

/-- one tern (`mealpy/swarm_based/STO.py:96-117`) -/
def round (ep idx : Nat) : M c Unit Unit Unit := do
  let s ← get
  let x ← draw (nth s.pop idx)
  let sf ← draw (leader s x)
  let r1 ← draw (integers 1 3)
  let r ← draw random
  let pos ← draw (correct (fun j => x.sol j + r * (sf.sol j - Num.ofInt r1 * x.sol j)))
  tryCompare (fun _ => pure ()) idx pos
  let s ← get
  let x ← draw (nth s.pop idx)
  let r ← draw random
  let pos ← draw (correct (fun j => x.sol j + r * (c.P.ub j - c.P.lb j) / ♯ep))
  tryCompare (fun _ => pure ()) idx pos

theorem it_round (hE : c.E.Lawful) (hP : c.P.Lawful) {ep idx : Nat} (hi : idx < c.popSize) :
    IT (FA c) JT 2 2 (round ep idx : M c Unit Unit Unit) (fun _ => True) := by
  unfold round; iwalk

theorem framed_round {ep idx : Nat} : Framed true (round ep idx : M c Unit Unit Unit) := by
  unfold round; framed

macro_rules
  | `(tactic| fprim) => `(tactic| (at_last OriginalSTO.round; exact OriginalSTO.framed_round))

/-- `OriginalSTO.evolve` (`mealpy/swarm_based/STO.py:87-117`) -/
def evolve (ep : Nat) : M c Unit Unit Unit := iter c.popSize (fun idx _ => round ep idx) ()

/-- `OriginalSTO` (`mealpy/swarm_based/STO.py:12-117`) -/
def algo : Algo c Unit Unit := Algo.plain false evolve

theorem ok (hE : c.E.Lawful) (hP : c.P.Lawful) (hc : Accepted c 5) :
    (algo : Algo c Unit Unit).Ok (FA c) JT JT JT c.popSize (c.popSize * 2) (c.popSize * 2) := by
  plainalg hE hP hc evolve
  exact IT.pt (IT.iterS 2 2 (by omega) (by omega) fun i hi => it_round hE hP hi)

theorem framed (hE : c.E.Lawful) (ep : Nat) : Framed true (evolve ep : M c Unit Unit Unit) := by
  unfold evolve; framed

end OriginalSTO

namespace OriginalOOA

/-- one osprey (`mealpy/swarm_based/OOA.py:98-119`) -/
def round (idx : Nat) : M c Unit Unit Unit := do
  let s ← get
  let x ← draw (nth s.pop idx)
  let sf ← draw (OriginalSTO.leader s x)
  let r1 ← draw (integers 1 3)
  let z ← draw (normal 0 1)
  let pos ← draw (correct (fun j => x.sol j + z * (sf.sol j - Num.ofInt r1 * x.sol j)))
  tryCompare (fun _ => pure ()) idx pos
  let s ← get
  let x ← draw (nth s.pop idx)
  let r ← draw random
  let pos ← draw (correct (fun j => x.sol j + c.P.lb j + r * (c.P.ub j - c.P.lb j)))
  tryCompare (fun _ => pure ()) idx pos

theorem it_round (hE : c.E.Lawful) (hP : c.P.Lawful) {idx : Nat} (hi : idx < c.popSize) :
    IT (FA c) JT 2 2 (round idx : M c Unit Unit Unit) (fun _ => True) := by
  unfold round; iwalk

theorem framed_round {idx : Nat} : Framed true (round idx : M c Unit Unit Unit) := by
  unfold round; framed

macro_rules
  | `(tactic| fprim) => `(tactic| (at_last OriginalOOA.round; exact OriginalOOA.framed_round))

/-- `OriginalOOA.evolve` (`mealpy/swarm_based/OOA.py:89-119`) -/
def evolve (ep : Nat) : M c Unit Unit Unit := iter c.popSize (fun idx _ => round idx) ()

/-- `OriginalOOA` (`mealpy/swarm_based/OOA.py:12-119`) -/
def algo : Algo c Unit Unit := Algo.plain false evolve

theorem ok (hE : c.E.Lawful) (hP : c.P.Lawful) (hc : Accepted c 5) :
    (algo : Algo c Unit Unit).Ok (FA c) JT JT JT c.popSize (c.popSize * 2) (c.popSize * 2) := by
  plainalg hE hP hc evolve
  exact IT.pt (IT.iterS 2 2 (by omega) (by omega) fun i hi => it_round hE hP hi)

theorem framed (hE : c.E.Lawful) (ep : Nat) : Framed true (evolve ep : M c Unit Unit Unit) := by
  unfold evolve; framed

end OriginalOOA

namespace OriginalOSA

/-- `alpha_max`, `beta_max in (0, 10)` (`mealpy/swarm_based/OSA.py:76-77`) -/
structure Params (K : Type) [Num K] where
  alphaMax : K
  betaMax : K

/-- the intensities (`mealpy/swarm_based/OSA.py:91-109`) -/
def intensity (s : St c Unit Unit) : D c (List K) := do
  let fits := s.pop.map Agent.fit
  let fmax : K := maxL fits
  let fmin : K := minL fits
  let best : K := if c.P.mm = .min then fmin else fmax
  let worst : K := if c.P.mm = .min then fmax else fmin
  repM c.popSize (fun idx => do
    let x ← nth s.pop idx
    let r ← random
    let I : K := if Num.abs (best - worst) < Num.EPSILON then 1 else (x.fit - worst) / (best - worst)
    let R : K := normV (fun j => x.sol j - s.gbest.sol j) + Num.EPSILON
    pure (I / (R * R) + r))

theorem dt_intensity {Er : Err → Prop} {s : St c Unit Unit} (hl : s.pop.length = c.popSize) :
    DT Er (intensity s : D c (List K)) (fun l => l.length = c.popSize) := by
  unfold intensity
  refine DT.repMT fun i hi => ?_
  dgo

/-- `OriginalOSA.evolve` (`mealpy/swarm_based/OSA.py:81-131`) -/
def evolve (p : Params K) (ep : Nat) : M c Unit Unit Unit := do
  let r ← draw random
  let alpha : K := r * p.alphaMax
  let beta : K := p.betaMax * (1.0 - ♯ep / ♯c.epoch)
  let s ← get
  let owls := s.pop.map Agent.sol
  let ic ← draw (intensity s)
  rebindLoop c.popSize (fun s idx => do
    let pvm ← random
    let o ← nth owls idx
    let i ← nth ic idx
    let pos ← correct (fun j =>
      let step : K := beta * i * (alpha * s.gbest.sol j - o j)
      if pvm < 0.5 then o j + step else o j - step)
    pure (pos, ()))

/-- `OriginalOSA` (`mealpy/swarm_based/OSA.py:12-131`) -/
def algo (p : Params K) : Algo c Unit Unit := Algo.plain false (evolve p)

theorem ok (hE : c.E.Lawful) (hP : c.P.Lawful) (hc : Accepted c 5) (p : Params K) :
    (algo p : Algo c Unit Unit).Ok (FA c) JT JT JT c.popSize c.popSize c.popSize := by
  plainalg hE hP hc evolve
  refine PT.bindD (by dgo) fun r => PT.bind0 IT.get fun s hs => ?_
  have hlen := hs.toGoodPop.len
  have hol : (s.pop.map Agent.sol).length = c.popSize := by rw [List.length_map]; exact hlen
  refine PT.bind0 (IT.draw (dt_intensity hlen)) fun ic hic => PT.weaken (PT.rebindLoop hE ?_) (by omega) (by omega)
  mkgo

theorem framed (hE : c.E.Lawful) (p : Params K) (ep : Nat) : Framed true (evolve p ep : M c Unit Unit Unit) := by
  unfold evolve; framed

end OriginalOSA

namespace OriginalTSeedA

/-- `st in [0, 1]` (`mealpy/bio_based/TSeedA.py:73`) -/
structure Params (K : Type) [Num K] where
  st : K

/-- a seed (`mealpy/bio_based/TSeedA.py:96-111`): before and after correction -/
def seed (p : Params K) (s : St c Unit Unit) (idx rdx : Nat) : D c (Vec d K × Vec d K) := do
  let x ← nth s.pop idx
  let y ← nth s.pop rdx
  let alpha ← uniformVec (fun _ => -1) (fun _ => 1)
  let r ← randomVec
  let raw : Vec d K := fun j => if r j < p.st then x.sol j + alpha j * (s.gbest.sol j - x.sol j) else x.sol j + alpha j * (x.sol j - y.sol j)
  let pos ← correct raw
  pure (raw, pos)

/-- the seeds of tree `idx`, evaluated (`mealpy/bio_based/TSeedA.py:91-118`). In single mode the objective is called with the position
before correction, while the agent carries the corrected one (line 115). -/
def seeds (p : Params K) (n idx : Nat) (rs : List Nat) : M c Unit Unit (List (Agent d K Unit)) := do
  if c.swarmLike then
    buildEval n (fun s jdx => do
      let rdx ← nth rs jdx
      let q ← seed p s idx rdx
      pure (q.2, ()))
  else
    iter n (fun jdx acc => do
      let s ← get
      let rdx ← draw (nth rs jdx)
      let q ← draw (seed p s idx rdx)
      let t ← liftB (getTarget q.1)
      pure (acc ++ [⟨q.2, t, ()⟩])) []

/-- one tree (`mealpy/bio_based/TSeedA.py:87-123`) -/
def round (p : Params K) (idx : Nat) : M c Unit Unit Unit := do
  let lo := max 1 (c.popSize / 10)
  let hi := max 2 (c.popSize / 4)
  let n ← draw (integers lo (hi + 1))
  let rs ← draw (sampleOne c.popSize idx n.toNat true)
  let new ← seeds p n.toNat idx rs
  let b ← draw (bestAgent new)
  slotComp idx b

theorem it_round (hE : c.E.Lawful) (hP : c.P.Lawful) (hpop : 5 ≤ c.popSize) (hm : c.swarmLike = true) {p : Params K} {idx : Nat} (hi : idx < c.popSize) :
    IT (FA c) JT (max 1 (c.popSize / 10)) (max 2 (c.popSize / 4)) (round p idx : M c Unit Unit Unit) (fun _ => True) := by
  unfold round
  refine HJ.it (HJ.bind0 (HJ.draw (DT.integers hE (by omega))) fun n hn => ?_)
  refine HJ.bind0 (HJ.draw (DT.sampleOne hE (by omega) (by omega) hi)) fun rs hrs => ?_
  unfold seeds
  rw [if_pos hm]
  refine HJ.weaken (lo := n.toNat) (hi := n.toNat) ?_ (by omega) (by omega)
  refine HJ.bindS (HJ.buildEval hE fun s i hs hl hi => ?_) (by omega) fun new hnew => ?_
  · refine DT.bind (DT.nth_mem (by omega)) fun rdx hr => ?_
    have := (hrs.2 rdx hr).1
    unfold seed
    refine DT.bind (R := fun q : Vec d K × Vec d K => Spec.InBox c.P.lb c.P.ub q.2) ?_ fun q hq => DT.pure (FA.mkOk hq)
    refine DT.bind (DT.nth_mem (by omega)) fun x _ => DT.bind (DT.nth_mem (by omega)) fun y _ => DT.bind DT.uniformVec' fun al _ => ?_
    exact DT.bind DT.randomVec fun r _ => DT.bind (DT.correct hP) fun pos hpos => DT.pure hpos
  · refine HJ.bind0 (HJ.draw (DT.bestAgent' hE (by omega))) fun b hb => ?_
    exact HJ.weaken (HJ.slotComp hi (by simpa using hb.1) (fun a ha => .inr (hb.2 a (by simpa using ha))) (by simp)) (by omega) (by omega)

theorem framed_round (hE : c.E.Lawful) {p : Params K} {idx : Nat} : Framed true (round p idx : M c Unit Unit Unit) := by
  unfold round seeds; framed

macro_rules
  | `(tactic| fprim) => `(tactic| (at_last OriginalTSeedA.round; exact OriginalTSeedA.framed_round (by assumption)))

/-- `OriginalTSeedA.evolve` (`mealpy/bio_based/TSeedA.py:77-123`) -/
def evolve (p : Params K) (ep : Nat) : M c Unit Unit Unit := iter c.popSize (fun idx _ => round p idx) ()

/-- `OriginalTSeedA` (`mealpy/bio_based/TSeedA.py:11-123`) -/
def algo (p : Params K) : Algo c Unit Unit := Algo.plain false (evolve p)

theorem ok (hE : c.E.Lawful) (hP : c.P.Lawful) (hc : Accepted c 5) (p : Params K) (hm : c.swarmLike = true) :
    (algo p : Algo c Unit Unit).Ok (FA c) JT JT JT c.popSize (c.popSize * max 1 (c.popSize / 10)) (c.popSize * max 2 (c.popSize / 4)) := by
  plainalg hE hP hc evolve
  exact IT.pt (IT.iterS _ _ (Nat.le_refl _) (Nat.le_refl _) fun i hi => it_round hE hP hc.pop.1 hm hi)

theorem framed (hE : c.E.Lawful) (p : Params K) (ep : Nat) : Framed true (evolve p ep : M c Unit Unit Unit) := by
  unfold evolve; framed

end OriginalTSeedA

namespace OriginalMSA

/-- `n_best in [2, pop_size/2]`, `n_moth1 = ceil(partition * pop_size)`, `max_step_size in [0, epoch]` (`mealpy/swarm_based/MSA.py:73-79`) -/
structure Params (K : Type) [Num K] where
  nBest : Nat
  nMoth1 : Nat
  maxStep : K

/-- `OriginalMSA.evolve` (`mealpy/swarm_based/MSA.py:85-119`) -/
def evolve (p : Params K) (ep : Nat) : M c Unit Unit Unit := do
  let gr : K := (Num.sqrt 5 - 1) / 2.0
  let s ← get
  let best := (s.pop.take p.nBest).reverse
  greedyLoopR c.popSize (fun s idx => do
    let g := s.gbest.sol
    let x ← nth s.pop idx
    if idx < p.nMoth1 then do
      let r ← randomVec
      let l ← levyVec 1.5 (p.maxStep / ♯ep) (-1)
      let pos ← correct (fun j => x.sol j + r j * l j)
      pure (pos, ())
    else do
      let r1 ← randomVec
      let r2 ← randomVec
      let r3 ← randomVec
      let pos ← correct (fun j => if r3 j < 0.5 then x.sol j + r2 j * (1.0 / gr) * (g j - x.sol j) else x.sol j + r1 j * gr * (g j - x.sol j))
      pure (pos, ()))
  keepBest (c.popSize - p.nBest) ([] ++ best)

/-- `OriginalMSA` (`mealpy/swarm_based/MSA.py:12-119`) -/
def algo (p : Params K) : Algo c Unit Unit := Algo.plain true (evolve p)

theorem ok (hE : c.E.Lawful) (hP : c.P.Lawful) (hc : Accepted c 5) (p : Params K) (hn : p.nBest ≤ c.popSize / 2) :
    (algo p : Algo c Unit Unit).Ok (FA c) JT JT JT c.popSize c.popSize c.popSize := by
  plainalg hE hP hc evolve
  refine IT.pt (HJ.it ?_)
  intro s0 s l k hs0 hs
  have hl := hs.good.len
  revert s0 s l k
  intro s0 s l k hs0 hs hl
  refine (HJ.getHold (fun s => (s.pop.take p.nBest).reverse) (fun s a ha => List.mem_of_mem_take (List.mem_reverse.1 ha)) fun s hs => ?_ : HJ (FA c) JT _ _ _ _ _ _) s0 s l k hs0 hs
  have hlen := hs.toGoodPop.len
  refine HJ.bindS (HJ.ofIT (IT.greedyLoopR hE (by mkgo))) (by omega) fun _ _ => ?_
  refine HJ.weaken (HJ.keepBest hE (by omega) ?_) (by omega) (by omega)
  simp only [List.nil_append, List.length_reverse, List.length_take]; omega

theorem framed (hE : c.E.Lawful) (p : Params K) (ep : Nat) : Framed true (evolve p ep : M c Unit Unit Unit) := by
  unfold evolve; framed

end OriginalMSA

namespace OriginalEVO

/-- `dis`, sorted; the members of the team (`mealpy/physics_based/EVO.py:75-78`) -/
def team (c : Cfg d K) (pop : List (Agent d K Unit)) (x : Agent d K Unit) (k : Nat) : List (Agent d K Unit) :=
  let dis : List K := pop.map (fun a => normV (fun j => x.sol j - a.sol j))
  picks pop (((c.E.argsort dis).take k).drop 1)

/-- the one or two agents made for a particle (`mealpy/physics_based/EVO.py:73-111`). Where two agents change `k` random dimensions
(`integers(0, n_dims, size=k)`) the dimensions are drawn one by one. -/
def kids (s : St c Unit Unit) (idx : Nat) : D c (List (Vec d K × Unit)) := do
  let g := s.gbest.sol
  let x ← nth s.pop idx
  let k ← pickWithout c.popSize [0, 1, idx]
  let tm := team c s.pop x k
  let xt : Vec d K := fun j => meanL (tm.map (fun a => a.sol j))
  let xp : Vec d K := fun j => meanL (s.pop.map (fun a => a.sol j))
  let eb : K := meanL (s.pop.map Agent.fit)
  let sl : K := (x.fit - s.gbest.fit) / ((gWorst s).fit - s.gbest.fit + Num.EPSILON)
  if compareFitness eb x.fit c.P.mm then do
    let r ← random
    if r > sl then do
      let a1 ← index d
      let a2 ← repM a1 (fun _ => index d)
      let g1 ← index d
      let g2 ← repM g1 (fun _ => index d)
      let p1 ← correct (atDims a2 x.sol g)
      let p2 ← correct (atDims g2 x.sol xt)
      pure [(p1, ()), (p2, ())]
    else do
      let i0 ← uniform 0 1
      let i1 ← uniform 0 1
      let j1 ← uniformVec (fun _ => 0) (fun _ => 1)
      let i2 ← uniform 0 1
      let i3 ← uniform 0 1
      let j2 ← uniformVec (fun _ => 0) (fun _ => 1)
      let p1 ← correct (fun j => x.sol j + j1 j * (i0 * g j - i1 * xp j) / sl)
      let p2 ← correct (fun j => x.sol j + j2 j * (i2 * g j - i3 * xt j))
      pure [(p1, ()), (p2, ())]
  else do
    let r ← random
    let u ← uniformVec c.P.lb c.P.ub
    let pos ← correct (fun j => x.sol j + r * sl * u j)
    pure [(pos, ())]

theorem mk2 {p1 p2 : Vec d K} (h1 : Spec.InBox c.P.lb c.P.ub p1) (h2 : Spec.InBox c.P.lb c.P.ub p2) :
    (1 ≤ [(p1, ()), (p2, ())].length ∧ [(p1, ()), (p2, ())].length ≤ 2) ∧ ∀ p ∈ [(p1, ()), (p2, ())], MkOk (FA c : Agent d K Unit → Prop) c p := by
  refine ⟨⟨by simp, by simp⟩, ?_⟩
  simp only [List.mem_cons, List.not_mem_nil, or_false, forall_eq_or_imp, forall_eq]
  exact ⟨FA.mkOk h1, FA.mkOk h2⟩

theorem mk1 {p1 : Vec d K} (h1 : Spec.InBox c.P.lb c.P.ub p1) :
    (1 ≤ [(p1, ())].length ∧ [(p1, ())].length ≤ 2) ∧ ∀ p ∈ [(p1, ())], MkOk (FA c : Agent d K Unit → Prop) c p := by
  refine ⟨⟨by simp, by simp⟩, ?_⟩
  simp only [List.mem_cons, List.not_mem_nil, or_false, forall_eq]
  exact FA.mkOk h1

theorem dt_kids (hE : c.E.Lawful) (hP : c.P.Lawful) (hd : 0 < d) (hpop : 5 ≤ c.popSize) {s : St c Unit Unit} (hl : s.pop.length = c.popSize)
    {idx : Nat} (hi : idx < c.popSize) : DT noErr (kids s idx : D c (List (Vec d K × Unit)))
      (fun l => (1 ≤ l.length ∧ l.length ≤ 2) ∧ ∀ p ∈ l, MkOk (FA c) c p) := by
  unfold kids
  refine DT.bind (DT.nth_mem (by omega)) fun x _ => DT.bind (DT.pickWithout hE (by simp; omega)) fun k _ => ?_
  refine DT.ite (fun _ => DT.bind DT.random' fun r _ => DT.ite (fun _ => ?_) fun _ => ?_) fun _ => ?_
  · refine DT.bind (DT.index hE hd) fun a1 _ => DT.bindT (DT.mono (DT.repMT fun i hi => DT.mono (DT.index hE hd) fun _ _ => trivial) fun _ _ => trivial) fun a2 => ?_
    refine DT.bind (DT.index hE hd) fun a1 _ => DT.bindT (DT.mono (DT.repMT fun i hi => DT.mono (DT.index hE hd) fun _ _ => trivial) fun _ _ => trivial) fun a2 => ?_
    exact DT.bind (DT.correct hP) fun p1 h1 => DT.bind (DT.correct hP) fun p2 h2 => DT.pure (mk2 h1 h2)
  · refine DT.bindT (by dgo) fun _ => DT.bindT (by dgo) fun _ => DT.bindT (by dgo) fun _ => DT.bindT (by dgo) fun _ => DT.bindT (by dgo) fun _ => DT.bindT (by dgo) fun _ => ?_
    exact DT.bind (DT.correct hP) fun p1 h1 => DT.bind (DT.correct hP) fun p2 h2 => DT.pure (mk2 h1 h2)
  · refine DT.bindT (by dgo) fun _ => DT.bindT (by dgo) fun _ => ?_
    exact DT.bind (DT.correct hP) fun p1 h1 => DT.pure (mk1 h1)

/-- `OriginalEVO.evolve` (`mealpy/physics_based/EVO.py:64-116`) -/
def evolve (ep : Nat) : M c Unit Unit Unit := do
  let s ← get
  let pend ← draw (gather c.popSize (kids s))
  let new ← evalAll pend
  mergeTrim c.popSize ([] ++ new)

/-- `OriginalEVO` (`mealpy/physics_based/EVO.py:12-116`) -/
def algo : Algo c Unit Unit := Algo.plain true evolve

theorem ok (hE : c.E.Lawful) (hP : c.P.Lawful) (hc : Accepted c 5) (hd : 0 < d) :
    (algo : Algo c Unit Unit).Ok (FA c) JT JT JT c.popSize (c.popSize * 1) (c.popSize * 2) := by
  plainalg hE hP hc evolve
  refine IT.pt (HJ.it (HJ.bind0 (HJ.ofIT IT.get) fun s hs => ?_))
  have hlen := hs.toGoodPop.len
  refine HJ.bind0 (HJ.draw (DT.gather (k1 := 1) (k2 := 2) fun i hi => dt_kids hE hP hd hc.pop.1 hlen hi)) fun pend hp => ?_
  refine HJ.lenEq (k := pend.length) ?_ hp.1
  refine HJ.bindS (HJ.evalAll hE hp.2) (by omega) fun new hn => ?_
  exact HJ.weaken (HJ.mergeTrim hE (by omega)) (by omega) (by omega)

theorem framed (hE : c.E.Lawful) (ep : Nat) : Framed true (evolve ep : M c Unit Unit Unit) := by
  unfold evolve; framed

end OriginalEVO

namespace OriginalFFO

/-- one fennec fox (`mealpy/swarm_based/FFO.py:99-115`) -/
def round (ep idx : Nat) : M c Unit Unit Unit := do
  let s ← get
  let x ← draw (nth s.pop idx)
  let r ← draw random
  let pos ← draw (correct (fun j => x.sol j + (2 * r * 1) * (0.2 * (1 - ♯ep / ♯c.epoch) * x.sol j)))
  tryCompare (fun _ => pure ()) idx pos
  let s ← get
  let kk ← draw (pickWithout c.popSize [idx])
  let y ← draw (nth s.pop kk)
  let x ← draw (nth s.pop idx)
  let r ← draw random
  let i ← draw (if compareTarget y.tgt x.tgt c.P.mm then integers 1 3 else pure 0 : D c Int)
  let pos ← draw (correct (fun j => if compareTarget y.tgt x.tgt c.P.mm then x.sol j + r * (y.sol j - Num.ofInt i * x.sol j)
    else x.sol j + r * (x.sol j - y.sol j)))
  tryCompare (fun _ => pure ()) idx pos

theorem it_round (hE : c.E.Lawful) (hP : c.P.Lawful) (hpop : 5 ≤ c.popSize) {ep idx : Nat} (hi : idx < c.popSize) :
    IT (FA c) JT 2 2 (round ep idx : M c Unit Unit Unit) (fun _ => True) := by
  unfold round; iwalk

theorem framed_round {ep idx : Nat} : Framed true (round ep idx : M c Unit Unit Unit) := by
  unfold round; framed

macro_rules
  | `(tactic| fprim) => `(tactic| (at_last OriginalFFO.round; exact OriginalFFO.framed_round))

/-- `OriginalFFO.evolve` (`mealpy/swarm_based/FFO.py:90-115`) -/
def evolve (ep : Nat) : M c Unit Unit Unit := iter c.popSize (fun idx _ => round ep idx) ()

/-- `OriginalFFO` (`mealpy/swarm_based/FFO.py:11-115`) -/
def algo : Algo c Unit Unit := Algo.plain false evolve

theorem ok (hE : c.E.Lawful) (hP : c.P.Lawful) (hc : Accepted c 5) :
    (algo : Algo c Unit Unit).Ok (FA c) JT JT JT c.popSize (c.popSize * 2) (c.popSize * 2) := by
  plainalg hE hP hc evolve
  exact IT.pt (IT.iterS 2 2 (by omega) (by omega) fun i hi => it_round hE hP hc.pop.1 hi)

theorem framed (hE : c.E.Lawful) (ep : Nat) : Framed true (evolve ep : M c Unit Unit Unit) := by
  unfold evolve; framed

end OriginalFFO

namespace OriginalTDO

/-- one devil (`mealpy/swarm_based/TDO.py:87-118`); both branches of the first `if` (87-110) do the same -/
def round (ep idx : Nat) : M c Unit Unit Unit := do
  let _ ← draw random
  let s ← get
  let kk ← draw (pickWithout c.popSize [idx])
  let y ← draw (nth s.pop kk)
  let x ← draw (nth s.pop idx)
  let r ← draw randomVec
  let i ← draw (if compareTarget y.tgt x.tgt c.P.mm then integers 1 3 else pure 0 : D c Int)
  let pos ← draw (correct (fun j => if compareTarget y.tgt x.tgt c.P.mm then x.sol j + r j * (y.sol j - Num.ofInt i * x.sol j)
    else x.sol j + r j * (x.sol j - y.sol j)))
  tryCompare (fun _ => pure ()) idx pos
  let s ← get
  let x ← draw (nth s.pop idx)
  let rr : K := 0.01 * (1 - ♯ep / ♯c.epoch)
  let r ← draw randomVec
  let pos ← draw (correct (fun j => x.sol j + (-rr + 2 * rr * r j) * x.sol j))
  tryCompare (fun _ => pure ()) idx pos

theorem it_round (hE : c.E.Lawful) (hP : c.P.Lawful) (hpop : 5 ≤ c.popSize) {ep idx : Nat} (hi : idx < c.popSize) :
    IT (FA c) JT 2 2 (round ep idx : M c Unit Unit Unit) (fun _ => True) := by
  unfold round; iwalk

theorem framed_round {ep idx : Nat} : Framed true (round ep idx : M c Unit Unit Unit) := by
  unfold round; framed

macro_rules
  | `(tactic| fprim) => `(tactic| (at_last OriginalTDO.round; exact OriginalTDO.framed_round))

/-- `OriginalTDO.evolve` (`mealpy/swarm_based/TDO.py:78-118`) -/
def evolve (ep : Nat) : M c Unit Unit Unit := iter c.popSize (fun idx _ => round ep idx) ()

/-- `OriginalTDO` (`mealpy/swarm_based/TDO.py:11-118`) -/
def algo : Algo c Unit Unit := Algo.plain false evolve

theorem ok (hE : c.E.Lawful) (hP : c.P.Lawful) (hc : Accepted c 5) :
    (algo : Algo c Unit Unit).Ok (FA c) JT JT JT c.popSize (c.popSize * 2) (c.popSize * 2) := by
  plainalg hE hP hc evolve
  exact IT.pt (IT.iterS 2 2 (by omega) (by omega) fun i hi => it_round hE hP hc.pop.1 hi)

theorem framed (hE : c.E.Lawful) (ep : Nat) : Framed true (evolve ep : M c Unit Unit Unit) := by
  unfold evolve; framed

end OriginalTDO

namespace OriginalCoatiOA

/-- the coatis on the tree (`mealpy/swarm_based/CoatiOA.py:91-95`) -/
def climb (idx : Nat) : M c Unit Unit Unit := do
  let s ← get
  let x ← draw (nth s.pop idx)
  let r ← draw random
  let i ← draw (integers 1 3)
  let pos ← draw (correct (fun j => x.sol j + r * (s.gbest.sol j - Num.ofInt i * x.sol j)))
  tryCompare (fun _ => pure ()) idx pos

/-- the coatis on the ground (`mealpy/swarm_based/CoatiOA.py:98-106`): the iguana is evaluated and forgotten -/
def ground (idx : Nat) : M c Unit Unit Unit := do
  let ig ← liftB (generateAgent (fun _ => pure ()))
  let s ← get
  let x ← draw (nth s.pop idx)
  let r ← draw random
  let i ← draw (if compareTarget ig.tgt x.tgt c.P.mm then integers 1 3 else pure 0 : D c Int)
  let pos ← draw (correct (fun j => if compareTarget ig.tgt x.tgt c.P.mm then x.sol j + r * (ig.sol j - Num.ofInt i * x.sol j)
    else x.sol j + r * (x.sol j - ig.sol j)))
  tryCompare (fun _ => pure ()) idx pos

/-- the escape (`mealpy/swarm_based/CoatiOA.py:110-115`) -/
def escape (ep idx : Nat) : M c Unit Unit Unit := do
  let s ← get
  let x ← draw (nth s.pop idx)
  let r1 ← draw random
  let r2 ← draw random
  let pos ← draw (correct (fun j =>
    let lo : K := c.P.lb j / ♯ep
    let hi : K := c.P.ub j / ♯ep
    x.sol j + (1 - 2 * r1) * (lo + r2 * (hi - lo))))
  tryCompare (fun _ => pure ()) idx pos

/-- `OriginalCoatiOA.evolve` (`mealpy/swarm_based/CoatiOA.py:81-115`) -/
def evolve (ep : Nat) : M c Unit Unit Unit := do
  iter (c.popSize / 2) (fun idx _ => climb idx) ()
  iter (c.popSize - c.popSize / 2) (fun k _ => ground (c.popSize / 2 + k)) ()
  iter c.popSize (fun idx _ => escape ep idx) ()

theorem wt_climb (hE : c.E.Lawful) (hP : c.P.Lawful) {idx : Nat} (hi : idx < c.popSize) :
    WT noErr (Inv.std c Unit JT) 1 1 (climb idx : M c Unit Unit Unit) (fun _ => True) := by
  unfold climb; wwalk

theorem wt_ground (hE : c.E.Lawful) (hP : c.P.Lawful) {idx : Nat} (hi : idx < c.popSize) :
    WT noErr (Inv.std c Unit JT) 2 2 (ground idx : M c Unit Unit Unit) (fun _ => True) := by
  unfold ground; wwalk

theorem wt_escape (hE : c.E.Lawful) (hP : c.P.Lawful) {ep idx : Nat} (hi : idx < c.popSize) :
    WT noErr (Inv.std c Unit JT) 1 1 (escape ep idx : M c Unit Unit Unit) (fun _ => True) := by
  unfold escape; wwalk

theorem framed_climb {idx : Nat} : Framed true (climb idx : M c Unit Unit Unit) := by unfold climb; framed
theorem framed_ground {idx : Nat} : Framed true (ground idx : M c Unit Unit Unit) := by unfold ground; framed
theorem framed_escape {ep idx : Nat} : Framed true (escape ep idx : M c Unit Unit Unit) := by unfold escape; framed

macro_rules
  | `(tactic| fprim) => `(tactic| first
    | (at_last OriginalCoatiOA.climb; exact OriginalCoatiOA.framed_climb)
    | (at_last OriginalCoatiOA.ground; exact OriginalCoatiOA.framed_ground)
    | (at_last OriginalCoatiOA.escape; exact OriginalCoatiOA.framed_escape))

/-- `OriginalCoatiOA` (`mealpy/swarm_based/CoatiOA.py:11-115`) -/
def algo : Algo c Unit Unit := Algo.plain false evolve

theorem wok (hE : c.E.Lawful) (hP : c.P.Lawful) (hc : Accepted c 5) :
    (algo : Algo c Unit Unit).WOk noErr (Inv.std c Unit JT) JT JT c.popSize c.popSize 0 0 (3 * c.popSize - c.popSize / 2) (3 * c.popSize - c.popSize / 2) := by
  wplainalg hE hP hc evolve
  refine WT.iterS 1 1 (by omega) (fun i hi => wt_climb hE hP (by omega)) ?_
  refine WT.iterS 2 2 (by omega) (fun i hi => wt_ground hE hP (by omega)) ?_
  exact WT.iterU 1 1 (by omega) (by omega) fun i hi => wt_escape hE hP hi

theorem framed (hE : c.E.Lawful) (ep : Nat) : Framed true (evolve ep : M c Unit Unit Unit) := by
  unfold evolve; framed

end OriginalCoatiOA

namespace OriginalFHO

/-- the new positions, before correction (`mealpy/swarm_based/FHO.py:78-128`) -/
def moves (s : St c Unit Unit) : D c (List (Vec d K)) := do
  let g := s.gbest.sol
  let n' ← integers 1 (c.popSize / 5 + 1 : Nat)
  let n := n'.toNat
  let sorted ← sortedPop s.pop
  let fh := (sorted.take n).map Agent.sol
  let pr := (sorted.drop n).map Agent.sol
  let terr : List Nat := pr.map (fun x => argminL (fh.map (fun f => normV (fun j => f j - x j))))
  let newF ← repM n (fun idx => do
    let r1 ← random
    let r2 ← random
    let jdx ← pickOr n idx
    let a ← nth fh idx
    let b ← nth fh jdx
    pure (fun j : Fin d => a j + (r1 * g j - r2 * b j)))
  let spg : Vec d K := fun j => meanL (pr.map (fun x => x j))
  let newP ← repM (c.popSize - n) (fun idx => do
    let l ← nth terr idx
    let r3 ← random
    let r4 ← random
    let r5 ← random
    let r6 ← random
    let x ← nth pr idx
    let f ← nth fh l
    let inT := ((terr.zip pr).filter (fun q => q.1 = l)).map Prod.snd
    let spl : Vec d K := if inT = [] then x else fun j => meanL (inT.map (fun y => y j))
    let jdx ← pickOr n l
    let f' ← nth fh jdx
    pure (fun j : Fin d => x j + (r3 * f j - r4 * spl j) + (r5 * f' j - r6 * spg j)))
  pure (newF ++ newP)

theorem dt_moves (hE : c.E.Lawful) (hpop : 5 ≤ c.popSize) {s : St c Unit Unit} (hl : s.pop.length = c.popSize) :
    DT noErr (moves s : D c (List (Vec d K))) (fun l => l.length = c.popSize) := by
  unfold moves
  refine DT.bind (DT.integers hE (by omega)) fun n' hn => DT.bind (DT.sortedPop' hE) fun sorted hso => ?_
  have hfh : ((sorted.take n'.toNat).map Agent.sol).length = n'.toNat := by rw [List.length_map, List.length_take]; omega
  have hpr : ((sorted.drop n'.toNat).map Agent.sol).length = c.popSize - n'.toNat := by rw [List.length_map, List.length_drop]; omega
  refine DT.bind (R := fun l : List (Vec d K) => l.length = n'.toNat) (DT.repMT fun i hi => ?_) fun newF hF => DT.bind (R := fun l : List (Vec d K) => l.length = c.popSize - n'.toNat) (DT.repMT fun i hi => ?_) fun newP hP => ?_
  · refine DT.bind DT.random' fun _ _ => DT.bind DT.random' fun _ _ => DT.bind (DT.pickOr hE hi) fun jdx hj => ?_
    exact DT.bind (DT.nth_mem (by omega)) fun _ _ => DT.bind (DT.nth_mem (by omega)) fun _ _ => DT.pure trivial
  · refine DT.bind (DT.nth_mem (by rw [List.length_map]; omega)) fun l hl' => ?_
    have hlt : l < n'.toNat := by
      obtain ⟨x, -, rfl⟩ := List.mem_map.1 hl'
      have := argminL_lt (l := ((sorted.take n'.toNat).map Agent.sol).map (fun f => normV (fun j => f j - x j))) (by rw [List.length_map]; omega)
      rw [List.length_map] at this
      omega
    refine DT.bind DT.random' fun _ _ => DT.bind DT.random' fun _ _ => DT.bind DT.random' fun _ _ => DT.bind DT.random' fun _ _ => ?_
    refine DT.bind (DT.nth_mem (by omega)) fun _ _ => DT.bind (DT.nth_mem (by omega)) fun _ _ => DT.bind (DT.pickOr hE hlt) fun jdx hj => ?_
    exact DT.bind (DT.nth_mem (by omega)) fun _ _ => DT.pure trivial
  · exact DT.pure (by rw [List.length_append]; omega)

/-- `OriginalFHO.evolve` (`mealpy/swarm_based/FHO.py:70-139`) -/
def evolve (ep : Nat) : M c Unit Unit Unit := do
  let s ← get
  let xs ← draw (moves s)
  let new ← buildEval c.popSize (fun _ idx => do
    let x ← nth xs idx
    let pos ← correct x
    pure (pos, ()))
  setPop new

/-- `OriginalFHO` (`mealpy/swarm_based/FHO.py:12-139`) -/
def algo : Algo c Unit Unit := Algo.plain false evolve

theorem ok (hE : c.E.Lawful) (hP : c.P.Lawful) (hc : Accepted c 5) :
    (algo : Algo c Unit Unit).Ok (FA c) JT JT JT c.popSize c.popSize c.popSize := by
  plainalg hE hP hc evolve
  refine PT.bind0 IT.get fun s hs => ?_
  have hlen := hs.toGoodPop.len
  refine PT.bind0 (IT.draw (dt_moves hE hc.pop.1 hlen)) fun xs hxs => ?_
  pwalk

theorem framed (hE : c.E.Lawful) (ep : Nat) : Framed true (evolve ep : M c Unit Unit Unit) := by
  unfold evolve; framed

end OriginalFHO

namespace OriginalSBOA

/-- `OriginalSBOA.evolve` (`mealpy/bio_based/SBOA.py:64-133`) -/
def evolve (ep : Nat) : M c Unit Unit Unit := do
  let cf : K := Num.pow (1.0 - ♯ep / ♯c.epoch) (2.0 * ♯ep / ♯c.epoch)
  greedyLoop c.popSize (fun s idx => do
    let g := s.gbest.sol
    let x ← nth s.pop idx
    if 3 * ep < c.epoch then do
      let (r1, r2) ← sample2 c.popSize idx true
      let y1 ← nth s.pop r1
      let y2 ← nth s.pop r2
      let r ← randomVec
      let pos ← correct (fun j => x.sol j + (y1.sol j - y2.sol j) * r j)
      pure (pos, ())
    else if 3 * ep < 2 * c.epoch then do
      let rb ← normalVec 0 1
      let t : K := ♯ep / ♯c.epoch
      let pos ← correct (fun j => g j + Num.exp (t * t * t * t) * (rb j - 0.5) * (g j - x.sol j))
      pure (pos, ())
    else do
      let rl ← levyVec 1.5 0.5 (-1)
      let pos ← correct (fun j => g j + cf * x.sol j * rl j)
      pure (pos, ()))
  let r ← draw random
  let k ← draw (index c.popSize)
  let s ← get
  let xr ← draw (nth s.pop k)
  greedyLoop c.popSize (fun s idx => do
    let x ← nth s.pop idx
    if r < 0.5 then do
      let rb ← randomVec
      let f : K := 1 - ♯ep / ♯c.epoch
      let pos ← correct (fun j => s.gbest.sol j + f * f * (2 * rb j - 1) * x.sol j)
      pure (pos, ())
    else do
      let u ← random
      let r2 ← randomVec
      let kk : K := if u < 0.5 then 1 else 2
      let pos ← correct (fun j => x.sol j + r2 j * (xr.sol j - kk * x.sol j))
      pure (pos, ()))

/-- `OriginalSBOA` (`mealpy/bio_based/SBOA.py:14-133`) -/
def algo : Algo c Unit Unit := Algo.plain false evolve

theorem ok (hE : c.E.Lawful) (hP : c.P.Lawful) (hc : Accepted c 5) :
    (algo : Algo c Unit Unit).Ok (FA c) JT JT JT c.popSize (2 * c.popSize) (2 * c.popSize) := by
  plainalg hE hP hc evolve
  iauto

theorem framed (hE : c.E.Lawful) (ep : Nat) : Framed true (evolve ep : M c Unit Unit Unit) := by
  unfold evolve; framed

end OriginalSBOA

namespace OriginalRFO

/-- `phi_0 in [0, 3.14]`, `theta in [0, 1]` (`mealpy/swarm_based/RFO.py:58-59`) -/
structure Params (K : Type) [Num K] where
  phi0 : K
  theta : K

/-- one fox (`mealpy/swarm_based/RFO.py:73-108`). The angles are drawn for all dimensions, one more than the code draws. -/
def round (p : Params K) (idx : Nat) : M c Unit Unit Unit := do
  let s ← get
  let g := s.gbest.sol
  let x ← draw (nth s.pop idx)
  let dist : K := normV (fun j => x.sol j - g j)
  let alpha ← draw (if dist > 0 then uniform 0 dist else pure 0 : D c K)
  let pos ← draw (correct (fun j => x.sol j + alpha * Num.sign (g j - x.sol j)))
  tryCompare (fun _ => pure ()) idx pos
  let u ← draw random
  if u > 0.75 then do
    let s ← get
    let x ← draw (nth s.pop idx)
    let a ← draw (uniform 0 0.2)
    let r : K := if p.phi0 = 0 then p.theta else a * (Num.sin p.phi0 / p.phi0)
    let phi ← draw (uniformVec (fun _ => 0) (fun _ => 2 * Num.pi))
    let pos ← draw (correct (fun j =>
      let sins : K := sumL ((List.ofFn (fun k : Fin d => Num.sin (phi k))).take j.val)
      x.sol j + (if j.val + 1 = d then a * r * sins else a * r * sins + a * r * Num.cos (phi j))))
    tryCompare (fun _ => pure ()) idx pos
  else pure ()

theorem it_round (hE : c.E.Lawful) (hP : c.P.Lawful) {p : Params K} {idx : Nat} (hi : idx < c.popSize) :
    IT (FA c) JT 1 2 (round p idx : M c Unit Unit Unit) (fun _ => True) := by
  unfold round; iwalk

theorem framed_round {p : Params K} {idx : Nat} : Framed true (round p idx : M c Unit Unit Unit) := by
  unfold round; framed

macro_rules
  | `(tactic| fprim) => `(tactic| (at_last OriginalRFO.round; exact OriginalRFO.framed_round))

/-- `OriginalRFO.evolve` (`mealpy/swarm_based/RFO.py:63-131`) -/
def evolve (p : Params K) (ep : Nat) : M c Unit Unit Unit := do
  iter c.popSize (fun idx _ => round p idx) ()
  let s ← get
  let (x1, x2) ← draw (best2 s.pop)
  let new ← spawn (max 1 (c.popSize / 20)) (fun _ => pure ()) (fun _ => do
    let kappa ← uniform 0 1
    let u ← (if kappa ≥ 0.45 then uniformVec c.P.lb c.P.ub else pure (fun j => kappa * (x1.sol j + x2.sol j) / 2) : D c (Vec d K))
    correct u)
  keepBest (c.popSize - max 1 (c.popSize / 20)) ([] ++ new)

/-- `OriginalRFO` (`mealpy/swarm_based/RFO.py:12-131`) -/
def algo (p : Params K) : Algo c Unit Unit := Algo.plain true (evolve p)

theorem ok (hE : c.E.Lawful) (hP : c.P.Lawful) (hc : Accepted c 5) (p : Params K) :
    (algo p : Algo c Unit Unit).Ok (FA c) JT JT JT c.popSize (c.popSize + max 1 (c.popSize / 20)) (2 * c.popSize + max 1 (c.popSize / 20)) := by
  plainalg hE hP hc evolve
  refine IT.pt (IT.iterB 1 2 (by omega) (fun i hi => it_round hE hP hi) (HJ.it ?_))
  hwalk

theorem framed (hE : c.E.Lawful) (p : Params K) (ep : Nat) : Framed true (evolve p ep : M c Unit Unit Unit) := by
  unfold evolve; framed

end OriginalRFO

namespace OriginalTSO

/-- `get_new_local_pos__` (`mealpy/swarm_based/TSO.py:68-87`) and the other branch of `evolve` (105-123), `aa = 0.7`, `zz = 0.05`; they
differ in the agent before: the first agent takes itself -/
def move (ep : Nat) (s : St c Unit Unit) (idx : Nat) : D c (Vec d K) := do
  let g := s.gbest.sol
  let C : K := ♯ep / ♯c.epoch
  let a1 : K := 0.7 + (1 - 0.7) * C
  let a2 : K := (1 - 0.7) - (1 - 0.7) * C
  let tt : K := Num.pow (1 - ♯ep / ♯c.epoch) (♯ep / ♯c.epoch)
  let x ← nth s.pop idx
  let y ← nth s.pop (idx - 1)
  let u ← random
  if u < 0.05 then genSolution else do
    let v ← random
    if (idx = 0 ∧ v < 0.5) ∨ (idx ≠ 0 ∧ v > 0.5) then do
      let r1 ← random
      let beta : K := Num.exp (r1 * Num.exp (3 * Num.cos (Num.pi * ((♯c.epoch - ♯ep) / ♯c.epoch)))) * Num.cos (2 * Num.pi * r1)
      let w ← random
      let z ← (if w < C then pure g else genSolution : D c (Vec d K))
      pure (fun j => a1 * (z j + beta * Num.abs (z j - x.sol j)) + a2 * y.sol j)
    else do
      let i ← index 2
      let tf : K := if i = 0 then -1 else 1
      let w ← random
      let r ← randomVec
      pure (fun j => if (idx = 0 ∧ w < 0.5) ∨ (idx ≠ 0 ∧ ¬ w < 0.5) then tf * (tt * tt) * x.sol j
        else g j + r j * (g j - x.sol j) + tf * (tt * tt) * (g j - x.sol j))

theorem dt_move (hE : c.E.Lawful) (hP : c.P.Lawful) {ep : Nat} {s : St c Unit Unit} (hl : s.pop.length = c.popSize) {idx : Nat} (hi : idx < c.popSize) :
    DT noErr (move ep s idx : D c (Vec d K)) (fun _ => True) := by
  unfold move; dgo

/-- `OriginalTSO.evolve` (`mealpy/swarm_based/TSO.py:89-129`) -/
def evolve (ep : Nat) : M c Unit Unit Unit := do
  let new ← buildEval c.popSize (fun s idx => do
    let x ← move ep s idx
    let pos ← correct x
    pure (pos, ()))
  setPop new

/-- `OriginalTSO` (`mealpy/swarm_based/TSO.py:12-129`) -/
def algo : Algo c Unit Unit := Algo.plain true evolve

theorem ok (hE : c.E.Lawful) (hP : c.P.Lawful) (hc : Accepted c 5) :
    (algo : Algo c Unit Unit).Ok (FA c) JT JT JT c.popSize c.popSize c.popSize := by
  plainalg hE hP hc evolve
  refine PT.weaken (PT.evalReplace hE fun s i hs hl hi => ?_) (by omega) (by omega)
  exact DT.bind (dt_move hE hP hl hi) fun x _ => DT.bind (DT.correct hP) fun pos hpos => DT.pure (FA.mkOk hpos)

theorem framed (hE : c.E.Lawful) (ep : Nat) : Framed true (evolve ep : M c Unit Unit Unit) := by
  unfold evolve; framed

end OriginalTSO

namespace OriginalTOA

/-- the supervisor: the global best or, evaluated and forgotten, the mean of the better members (`mealpy/human_based/TOA.py:104-110`) -/
def supervisor (idx : Nat) : M c Unit Unit (Agent d K Unit) := do
  let s ← get
  let x ← draw (nth s.pop idx)
  let l := betterThan c.P.mm s.pop x.fit
  if l = [] then pure s.gbest else do
    let pos ← draw (correct (fun j => meanL (l.map (fun a => a.sol j))))
    liftB (agentOf (fun _ => pure ()) pos)

theorem wt_supervisor (hP : c.P.Lawful) {idx : Nat} (hi : idx < c.popSize) :
    WT noErr (Inv.std c Unit JT) 0 1 (supervisor idx : M c Unit Unit _) (fun _ => True) := by
  unfold supervisor
  refine WT.bind0 WT.get fun s hs => ?_
  have hlen : s.pop.length = c.popSize := hs.len
  refine WT.bind0 (WT.draw (DT.nth_mem (by omega))) fun x _ => WT.ite (fun _ => WT.weaken (WT.pure trivial) (by omega) (by omega)) fun _ => ?_
  refine WT.bind0 (WT.draw (DT.correct hP)) fun pos hpos => ?_
  exact WT.weaken (WT.mono (WT.agentOf (I := Inv.std c Unit JT) hpos (DT.pure hpos)) fun _ _ => trivial) (by omega) (by omega)

theorem framed_supervisor {q : Bool} {idx : Nat} : Framed q (supervisor idx : M c Unit Unit (Agent d K Unit)) := by
  unfold supervisor
  exact .bind .get fun _ => .bind .draw fun _ => .ite .pure (.bind .draw fun _ => .liftB .agentOf)

macro_rules
  | `(tactic| fprim) => `(tactic| (at_last OriginalTOA.supervisor; exact OriginalTOA.framed_supervisor))
macro_rules
  | `(tactic| wstep) => `(tactic| (at_bind OriginalTOA.supervisor; refine WT.bindS (OriginalTOA.wt_supervisor (by assumption) (by omega)) (by omega) (fun _ _ => ?_)))

/-- one member (`mealpy/human_based/TOA.py:98-122`) -/
def round (idx : Nat) : M c Unit Unit Unit := do
  let s ← get
  let x ← draw (nth s.pop idx)
  let r ← draw random
  let i ← draw (integers 1 3)
  let pos ← draw (correct (fun j => x.sol j + r * (s.gbest.sol j - Num.ofInt i * x.sol j)))
  tryCompare (fun _ => pure ()) idx pos
  let sf ← supervisor idx
  let s ← get
  let x ← draw (nth s.pop idx)
  let r ← draw random
  let i ← draw (integers 1 3)
  let pos ← draw (correct (fun j => x.sol j + r * (sf.sol j - Num.ofInt i * x.sol j) * Num.sign (x.fit - sf.fit)))
  tryCompare (fun _ => pure ()) idx pos
  let s ← get
  let x ← draw (nth s.pop idx)
  let r ← draw random
  let pos ← draw (correct (fun j => x.sol j + (-0.01 + r * 0.02) * x.sol j))
  tryCompare (fun _ => pure ()) idx pos

theorem wt_round (hE : c.E.Lawful) (hP : c.P.Lawful) {idx : Nat} (hi : idx < c.popSize) :
    WT noErr (Inv.std c Unit JT) 3 4 (round idx : M c Unit Unit Unit) (fun _ => True) := by
  unfold round; wwalk

theorem framed_round {idx : Nat} : Framed true (round idx : M c Unit Unit Unit) := by
  unfold round; framed

macro_rules
  | `(tactic| fprim) => `(tactic| (at_last OriginalTOA.round; exact OriginalTOA.framed_round))

/-- `OriginalTOA.evolve` (`mealpy/human_based/TOA.py:89-122`) -/
def evolve (ep : Nat) : M c Unit Unit Unit := iter c.popSize (fun idx _ => round idx) ()

/-- `OriginalTOA` (`mealpy/human_based/TOA.py:12-122`) -/
def algo : Algo c Unit Unit := Algo.plain false evolve

theorem wok (hE : c.E.Lawful) (hP : c.P.Lawful) (hc : Accepted c 5) :
    (algo : Algo c Unit Unit).WOk noErr (Inv.std c Unit JT) JT JT c.popSize c.popSize 0 0 (c.popSize * 3) (c.popSize * 4) := by
  wplainalg hE hP hc evolve
  exact WT.iterU 3 4 (by omega) (by omega) fun i hi => wt_round hE hP hi

theorem framed (hE : c.E.Lawful) (ep : Nat) : Framed true (evolve ep : M c Unit Unit Unit) := by
  unfold evolve; framed

end OriginalTOA

namespace OriginalHGS

/-- `PUP in (0, 1)`, `LH in [1, 20000]` (`mealpy/swarm_based/HGS.py:60-61`) -/
structure Params (K : Type) [Num K] where
  pup : K
  lh : K

/-- `sech__` (`mealpy/swarm_based/HGS.py:71-74`) -/
def sech (x : K) : K := if Num.abs x > 50 then 0.5 else 2 / (Num.exp x + Num.exp (-x))

/-- `OriginalHGS.evolve` (`mealpy/swarm_based/HGS.py:93-143`) with `update_hunger_value__` (76-91); the attribute of an agent is its hunger -/
def evolve (p : Params K) (ep : Nat) : M c K Unit Unit := do
  let s ← get
  let b ← draw (bestAgent s.pop)
  let w ← draw (worstAgent s.pop)
  let rs ← draw (repM c.popSize (fun _ => random))
  let space : K := meanL (List.ofFn (fun j : Fin d => c.P.ub j - c.P.lb j))
  mapExt (fun i a =>
    let r : K := (rs[i]?).getD 0
    let h : K := (a.fit - b.fit) / (w.fit - b.fit + Num.EPSILON) * r * 2 * space
    if b.fit = a.fit then 0 else a.ext + (if h < p.lh then p.lh * (1 + r) else h))
  let s ← get
  let total : K := sumL (s.pop.map Agent.ext)
  let shrink : K := 2 * (1 - ♯ep / ♯c.epoch)
  greedyLoopR c.popSize (fun s idx => do
    let x ← nth s.pop idx
    let E : K := sech (x.fit - b.fit)
    let r0 ← random
    let R : K := 2 * shrink * r0 - shrink
    let u ← random
    let w1 ← (if u < p.pup then do
        let r ← random
        pure (x.ext * ♯c.popSize / (total + Num.EPSILON) * r)
      else pure 1 : D c K)
    let v ← random
    let w2 : K := (1 - Num.exp (-(Num.abs (x.ext - total)))) * v * 2
    let r1 ← random
    let r2 ← random
    let z ← (if r1 < p.pup then normal 0 1 else pure 0 : D c K)
    let pos ← correct (fun j => if r1 < p.pup then x.sol j * (1 + z)
      else if r2 > E then w1 * b.sol j + R * w2 * Num.abs (b.sol j - x.sol j)
      else w1 * b.sol j - R * w2 * Num.abs (b.sol j - x.sol j))
    pure (pos, x.ext))

/-- `OriginalHGS` (`mealpy/swarm_based/HGS.py:13-143`) -/
def algo (p : Params K) : Algo c K Unit := Algo.full false (fun _ => pure 1) (pure ()) (evolve p)

theorem ok (hE : c.E.Lawful) (hP : c.P.Lawful) (hc : Accepted c 5) (p : Params K) :
    (algo p : Algo c K Unit).Ok (FA c) JT JT JT c.popSize c.popSize c.popSize := by
  fullalg hE hP hc evolve
  iauto

theorem framed (hE : c.E.Lawful) (p : Params K) (ep : Nat) : Framed true (evolve p ep : M c K Unit Unit) := by
  unfold evolve; framed

end OriginalHGS

namespace OriginalHHO

/-- the hawk dives (`mealpy/swarm_based/HHO.py:101-122`): both positions are evaluated, at most one is kept -/
def dive (E J : K) (idx : Nat) : M c Unit Unit (Vec d K × Unit) := do
  let s ← get
  let g := s.gbest.sol
  let x ← draw (nth s.pop idx)
  let lf ← draw (levy 1.5 0.01 (-1))
  let xm : K := meanAll (s.pop.map Agent.sol)
  let Y : Vec d K := fun j => if Num.abs E ≥ 0.5 then g j - E * Num.abs (J * g j - x.sol j) else g j - E * Num.abs (J * g j - xm)
  let pY ← draw (correct Y)
  let tY ← liftB (getTarget pY)
  let u ← draw (uniformVec c.P.lb c.P.ub)
  let pZ ← draw (correct (fun j => Y j + u j * lf))
  let tZ ← liftB (getTarget pZ)
  if compareTarget tY x.tgt c.P.mm then pure (pY, ())
  else if compareTarget tZ x.tgt c.P.mm then pure (pZ, ())
  else pure (x.sol, ())

theorem wt_dive (hE : c.E.Lawful) (hP : c.P.Lawful) {E J : K} {idx : Nat} (hi : idx < c.popSize) :
    WT noErr (Inv.std c Unit JT) 2 2 (dive E J idx : M c Unit Unit _) (Inv.std c Unit (JT : Unit → Prop)).Mk := by
  unfold dive
  refine WT.bind0 WT.get fun s hs => ?_
  have hlen : s.pop.length = c.popSize := hs.len
  refine WT.bind0 (WT.draw (DT.nth_mem (by omega))) fun x hx => WT.bind0 (WT.draw (R := fun _ => True) (by dgo)) fun lf _ => ?_
  refine WT.bind0 (WT.draw (DT.correct hP)) fun pY hY => WT.bindS (WT.getTarget (I := Inv.std c Unit JT) hY) (by omega) fun tY _ => ?_
  refine WT.bind0 (WT.draw DT.uniformVec') fun u _ => WT.bind0 (WT.draw (DT.correct hP)) fun pZ hZ => WT.bindS (WT.getTarget (I := Inv.std c Unit JT) hZ) (by omega) fun tZ _ => ?_
  refine WT.ite (fun _ => WT.pure (Inv.std_mk hY)) fun _ => WT.ite (fun _ => WT.pure (Inv.std_mk hZ)) fun _ => WT.pure (Inv.std_mk ?_)
  exact (hs.pop x hx).2

theorem framed_dive {q : Bool} {E J : K} {idx : Nat} : Framed q (dive E J idx : M c Unit Unit (Vec d K × Unit)) :=
  .bind .get fun _ => .bind .draw fun _ => .bind .draw fun _ => .bind .draw fun _ => .bind (.liftB .getTarget) fun _ => .bind .draw fun _ =>
    .bind .draw fun _ => .bind (.liftB .getTarget) fun _ => .ite .pure (.ite .pure .pure)

/-- one hawk (`mealpy/swarm_based/HHO.py:68-122`) -/
def hawk (ep idx : Nat) : M c Unit Unit (Vec d K × Unit) := do
  let s ← get
  let g := s.gbest.sol
  let e0 ← draw (uniform 0 1)
  let j0 ← draw (uniform 0 1)
  let E : K := 2 * (2 * e0 - 1) * (1 - ♯ep * 1.0 / ♯c.epoch)
  let J : K := 2 * (1 - j0)
  let r ← draw random
  if Num.abs E ≥ 1 then do
    let x ← draw (nth s.pop idx)
    let i ← draw (index c.popSize)
    let y ← draw (nth s.pop i)
    let u1 ← draw (uniform 0 1)
    let u2 ← draw (uniform 0 1)
    let xm : K := meanAll (s.pop.map Agent.sol)
    let pos ← draw (correct (fun j => if r ≥ 0.5 then y.sol j - u1 * Num.abs (y.sol j - 2 * u2 * x.sol j)
      else (g j - xm) - u1 * (c.P.lb j + u2 * (c.P.ub j - c.P.lb j))))
    pure (pos, ())
  else if r ≥ 0.5 then do
    let x ← draw (nth s.pop idx)
    let pos ← draw (correct (fun j =>
      let dx : K := g j - x.sol j
      if Num.abs E ≥ 0.5 then dx - E * Num.abs (J * g j - x.sol j) else g j - E * Num.abs dx))
    pure (pos, ())
  else dive E J idx

theorem wt_hawk (hE : c.E.Lawful) (hP : c.P.Lawful) {ep idx : Nat} (hi : idx < c.popSize) :
    WT noErr (Inv.std c Unit JT) 0 2 (hawk ep idx : M c Unit Unit _) (Inv.std c Unit (JT : Unit → Prop)).Mk := by
  unfold hawk
  refine WT.bind0 WT.get fun s hs => ?_
  have hlen : s.pop.length = c.popSize := hs.len
  refine WT.bind0 (WT.draw (R := fun _ => True) (by dgo)) fun _ _ => WT.bind0 (WT.draw (R := fun _ => True) (by dgo)) fun _ _ => WT.bind0 (WT.draw DT.random') fun r _ => ?_
  refine WT.ite (fun _ => WT.weaken (lo := 0) (hi := 0) ?_ (by omega) (by omega)) fun _ => WT.ite (fun _ => WT.weaken (lo := 0) (hi := 0) ?_ (by omega) (by omega)) fun _ => ?_
  · refine WT.bind0 (WT.draw (DT.nth_mem (by omega))) fun _ _ => WT.bind0 (WT.draw (DT.index hE (by omega))) fun _ _ => WT.bind0 (WT.draw (DT.nth_mem (by omega))) fun _ _ => ?_
    refine WT.bind0 (WT.draw (R := fun _ => True) (by dgo)) fun _ _ => WT.bind0 (WT.draw (R := fun _ => True) (by dgo)) fun _ _ => ?_
    exact WT.bind0 (WT.draw (DT.correct hP)) fun pos hpos => WT.pure (Inv.std_mk hpos)
  · refine WT.bind0 (WT.draw (DT.nth_mem (by omega))) fun _ _ => ?_
    exact WT.bind0 (WT.draw (DT.correct hP)) fun pos hpos => WT.pure (Inv.std_mk hpos)
  · exact WT.weaken (wt_dive hE hP hi) (by omega) (by omega)

theorem framed_hawk {q : Bool} {ep idx : Nat} : Framed q (hawk ep idx : M c Unit Unit (Vec d K × Unit)) :=
  .bind .get fun _ => .bind .draw fun _ => .bind .draw fun _ => .bind .draw fun _ => .ite
    (.bind .draw fun _ => .bind .draw fun _ => .bind .draw fun _ => .bind .draw fun _ => .bind .draw fun _ => .bind .draw fun _ => .pure)
    (.ite (.bind .draw fun _ => .bind .draw fun _ => .pure) framed_dive)

/-- `OriginalHHO.evolve` (`mealpy/swarm_based/HHO.py:58-128`): every agent made is evaluated (again) at the end -/
def evolve (ep : Nat) : M c Unit Unit Unit := do
  let pend ← iter c.popSize (fun idx acc => do
    let p ← hawk ep idx
    pure (acc ++ [p])) []
  let new ← evalAll pend
  selectGreedy new

macro_rules
  | `(tactic| fprim) => `(tactic| (at_last OriginalHHO.hawk; exact OriginalHHO.framed_hawk))

/-- `OriginalHHO` (`mealpy/swarm_based/HHO.py:12-128`) -/
def algo : Algo c Unit Unit := Algo.plain false evolve

theorem wok (hE : c.E.Lawful) (hP : c.P.Lawful) (hc : Accepted c 5) :
    (algo : Algo c Unit Unit).WOk noErr (Inv.std c Unit JT) JT JT c.popSize c.popSize 0 0 (c.popSize * 0 + c.popSize) (c.popSize * 2 + c.popSize) := by
  wplainalg hE hP hc evolve
  refine WT.bindS (WT.iterL 0 2 (Inv.std c Unit (JT : Unit → Prop)).Mk (Nat.le_refl _) (Nat.le_refl _) fun i l hi hl hq => ?_) (by omega) fun pend hp => ?_
  · refine WT.bindS (wt_hawk hE hP hi) (by omega) fun p hp => WT.weaken (WT.pure ⟨by simp [hl], fun b hb => ?_⟩) (by omega) (by omega)
    rcases List.mem_append.1 hb with h | h
    · exact hq b h
    · rw [List.mem_singleton.1 h]; exact hp
  · have hpl : pend.length = c.popSize := hp.1
    refine WT.bindS (WT.evalAll hE hp.2) (by omega) fun new hn => ?_
    exact WT.weaken (WT.selectGreedy (by wsz) hn.2) (by omega) (by omega)

theorem framed (hE : c.E.Lawful) (ep : Nat) : Framed true (evolve ep : M c Unit Unit Unit) := by
  unfold evolve; framed

end OriginalHHO

namespace OriginalZOA

/-- `OriginalZOA.evolve` (`mealpy/swarm_based/ZOA.py:81-123`) -/
def evolve (ep : Nat) : M c Unit Unit Unit := do
  greedyLoop c.popSize (fun s idx => do
    let u ← random
    let r1 : K := if u < 0.5 then 1 else 2
    let x ← nth s.pop idx
    let r ← randomVec
    let pos ← correct (fun j => x.sol j + r j * (s.gbest.sol j - r1 * x.sol j))
    pure (pos, ()))
  let kk ← draw (pickPerm (List.range c.popSize))
  greedyLoop c.popSize (fun s idx => do
    let x ← nth s.pop idx
    let u ← random
    if u < 0.5 then do
      let r ← randomVec
      let pos ← correct (fun j => x.sol j + 0.1 * (2 + r j - 1) * (1 - ♯ep / ♯c.epoch) * x.sol j)
      pure (pos, ())
    else do
      let r2 ← integers 1 3
      let r ← randomVec
      let y ← nth s.pop kk
      let pos ← correct (fun j => x.sol j + r j * (y.sol j - Num.ofInt r2 * x.sol j))
      pure (pos, ()))

/-- `OriginalZOA` (`mealpy/swarm_based/ZOA.py:12-123`) -/
def algo : Algo c Unit Unit := Algo.plain false evolve

theorem ok (hE : c.E.Lawful) (hP : c.P.Lawful) (hc : Accepted c 5) :
    (algo : Algo c Unit Unit).Ok (FA c) JT JT JT c.popSize (2 * c.popSize) (2 * c.popSize) := by
  plainalg hE hP hc evolve
  refine IT.pt (IT.bindS (IT.greedyLoop hE (by mkgo)) (by omega) fun _ _ => ?_)
  refine IT.bind0 (IT.draw (DT.pickPerm hE (by simp; omega))) fun kk hkk => ?_
  have hk : kk < c.popSize := List.mem_range.1 hkk
  iwalk

theorem framed (hE : c.E.Lawful) (ep : Nat) : Framed true (evolve ep : M c Unit Unit Unit) := by
  unfold evolve; framed

end OriginalZOA

namespace OriginalAVOA

/-- `p1`, `p2`, `p3`, `alpha in (0, 1)`, `gama in (0, 5)` (`mealpy/swarm_based/AVOA.py:76-80`) -/
structure Params (K : Type) [Num K] where
  p1 : K
  p2 : K
  p3 : K
  alpha : K
  gama : K

/-- `OriginalAVOA.evolve` (`mealpy/swarm_based/AVOA.py:84-128`) -/
def evolve (p : Params K) (ep : Nat) : M c Unit Unit Unit := do
  let u ← draw (uniform (-2) 2)
  let t : K := (Num.pi / 2) * (♯ep / ♯c.epoch)
  let a : K := u * (Num.pow (Num.sin t) p.gama + Num.cos t - 1)
  let v ← draw random
  let ppp : K := (2 * v + 1) * (1 - ♯ep / ♯c.epoch) + a
  let s ← get
  let (b1, b2) ← draw (best2 s.pop)
  let new ← buildEval c.popSize (fun s idx => do
    let r0 ← random
    let F : K := ppp * (2 * r0 - 1)
    let ri ← choiceP [p.alpha, 1 - p.alpha]
    let rp : Vec d K := if ri = 0 then b1.sol else b2.sol
    let x ← nth s.pop idx
    let r ← random
    let w1 ← random
    let w2 ← random
    let l ← levyVec 1.5 1 (-1)
    let pos ← correct (fun j =>
      if Num.abs F ≥ 1 then
        (if r < p.p1 then rp j - Num.abs ((2 * w1) * rp j - x.sol j) * F
        else rp j - F + w1 * ((c.P.ub j - c.P.lb j) * w2 + c.P.lb j))
      else if Num.abs F < 0.5 then
        (if r < p.p2 then
          ((b1.sol j - ((b1.sol j * x.sol j) / (b1.sol j - x.sol j * x.sol j + Num.EPSILON)) * F) +
          (b2.sol j - ((b2.sol j * x.sol j) / (b2.sol j - x.sol j * x.sol j + Num.EPSILON)) * F)) / 2
        else rp j - Num.abs (rp j - x.sol j) * F * l j)
      else
        (if r < p.p3 then Num.abs ((2 * w1) * rp j - x.sol j) * (F + w2) - (rp j - x.sol j)
        else rp j - (rp j * (w1 * x.sol j / (2 * Num.pi)) * Num.cos (x.sol j) + rp j * (w2 * x.sol j / (2 * Num.pi)) * Num.sin (x.sol j))))
    pure (pos, ()))
  setPop new

/-- `OriginalAVOA` (`mealpy/swarm_based/AVOA.py:12-128`) -/
def algo (p : Params K) : Algo c Unit Unit := Algo.plain false (evolve p)

theorem ok (hE : c.E.Lawful) (hP : c.P.Lawful) (hc : Accepted c 5) (p : Params K) :
    (algo p : Algo c Unit Unit).Ok (FA c) JT JT JT c.popSize c.popSize c.popSize := by
  plainalg hE hP hc evolve
  pwalk

theorem framed (hE : c.E.Lawful) (p : Params K) (ep : Nat) : Framed true (evolve p ep : M c Unit Unit Unit) := by
  unfold evolve; framed

end OriginalAVOA
