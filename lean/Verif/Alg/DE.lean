import Verif.Alg.Kit

/-! # Differential evolution (`mealpy/evolutionary_based/DE.py`) -/

set_option linter.unusedSectionVars false
set_option linter.unusedVariables false

namespace Mealpy
open Spec

variable {d : Nat} {K : Type} [Num K] {c : Cfg d K}

namespace OriginalDE

/-- `wf in (-3, 3)`, `cr in (0, 1)`, `strategy in [0, 5]` (`mealpy/evolutionary_based/DE.py:77-79`) -/
structure Params (K : Type) [Num K] where
  wf : K
  cr : K
  strategy : Nat
  wf_ok : (-3 : K) < wf ∧ wf < 3
  cr_ok : (0 : K) < cr ∧ cr < 1
  strategy_ok : strategy ≤ 5

/-- `mutation__` (`mealpy/evolutionary_based/DE.py:83-86`) -/
def mutation (p : Params K) (current new : Vec d K) : D c (Vec d K) := do
  let r ← randomVec
  correct (fun j => if r j < p.cr then new j else current j)

/-- the new position for `idx` under each strategy
(`mealpy/evolutionary_based/DE.py:99-101,109-111,119-122,130-133,141-144,152-155`) -/
def mk (p : Params K) (s : St c Unit Unit) (idx : Nat) : D c (Vec d K × Unit) := do
  let g := s.gbest.sol
  let new ← (
    if p.strategy = 0 then do
      let l ← othersOf s.pop [idx] 3
      let x0 ← nth l 0
      let x1 ← nth l 1
      let x2 ← nth l 2
      pure (fun j => x0.sol j + p.wf * (x1.sol j - x2.sol j) : Vec d K)
    else if p.strategy = 1 then do
      let l ← othersOf s.pop [idx] 2
      let x0 ← nth l 0
      let x1 ← nth l 1
      pure (fun j => g j + p.wf * (x0.sol j - x1.sol j))
    else if p.strategy = 2 then do
      let l ← othersOf s.pop [idx] 4
      let x0 ← nth l 0
      let x1 ← nth l 1
      let x2 ← nth l 2
      let x3 ← nth l 3
      pure (fun j => g j + p.wf * (x0.sol j - x1.sol j) + p.wf * (x2.sol j - x3.sol j))
    else if p.strategy = 3 then do
      let l ← othersOf s.pop [idx] 5
      let x0 ← nth l 0
      let x1 ← nth l 1
      let x2 ← nth l 2
      let x3 ← nth l 3
      let x4 ← nth l 4
      pure (fun j => x0.sol j + p.wf * (x1.sol j - x2.sol j) + p.wf * (x3.sol j - x4.sol j))
    else if p.strategy = 4 then do
      let l ← othersOf s.pop [idx] 2
      let x0 ← nth l 0
      let x1 ← nth l 1
      let x ← nth s.pop idx
      pure (fun j => x.sol j + p.wf * (g j - x.sol j) + p.wf * (x0.sol j - x1.sol j))
    else do
      let l ← othersOf s.pop [idx] 3
      let x0 ← nth l 0
      let x1 ← nth l 1
      let x2 ← nth l 2
      let x ← nth s.pop idx
      pure (fun j => x.sol j + p.wf * (x0.sol j - x.sol j) + p.wf * (x1.sol j - x2.sol j)))
  let x ← nth s.pop idx
  let pos ← mutation p x.sol new
  pure (pos, ())

/-- `OriginalDE.evolve` (`mealpy/evolutionary_based/DE.py:88-163`) -/
def evolve (p : Params K) (ep : Nat) : M c Unit Unit Unit := greedyLoop c.popSize (mk p)

/-- `OriginalDE` (`mealpy/evolutionary_based/DE.py:14-163`) -/
def algo (p : Params K) : Algo c Unit Unit := Algo.plain false (evolve p)

theorem DT.mutation (hP : c.P.Lawful) {Er : Err → Prop} {p : Params K} {x y : Vec d K} :
    DT Er (mutation p x y : D c _) (Feas c) := by
  unfold OriginalDE.mutation; dgo

macro_rules
  | `(tactic| dprim) => `(tactic| (at_head mutation; exact DT.mutation (by assumption)))

theorem mk_ok (hE : c.E.Lawful) (hP : c.P.Lawful) {s : St c Unit Unit} {i : Nat} (p : Params K)
    (hc : Accepted c 5) (hl : s.pop.length = c.popSize) (hi : i < c.popSize) (h3 : p.strategy = 3 → 6 ≤ c.popSize) :
    DT noErr (mk p s i) (MkOk (FA c) c) := by
  have hpop := hc.pop
  unfold mk
  dgo

theorem ok (hE : c.E.Lawful) (hP : c.P.Lawful) (hc : Accepted c 5) (p : Params K) (h3 : p.strategy = 3 → 6 ≤ c.popSize) :
    (algo p : Algo c Unit Unit).Ok (FA c) JT JT JT c.popSize c.popSize c.popSize := by
  plainalg hE hP hc evolve
  exact IT.pt (IT.greedyLoop hE fun s i _ hl hi => mk_ok hE hP p hc hl hi h3)

theorem framed (hE : c.E.Lawful) (p : Params K) (ep : Nat) : Framed true (evolve p ep : M c Unit Unit Unit) := by
  unfold evolve; framed

/-- strategy 3 wants five others -/
theorem mk_raises (p : Params K) (h3 : p.strategy = 3) (s : St c Unit Unit) (hl : s.pop.length = 5) {idx : Nat}
    (hi : idx < 5) (g : c.E.σ × c.P.S) : mk p s idx g = .error .value := by
  have hch : (choiceWithout (c := c) s.pop.length [idx] 5 false) g = .error .value := by
    have h4 : (rangeWithout s.pop.length [idx]).length = 4 := by
      rw [hl]
      have : idx = 0 ∨ idx = 1 ∨ idx = 2 ∨ idx = 3 ∨ idx = 4 := by omega
      rcases this with rfl | rfl | rfl | rfl | rfl <;> decide
    unfold choiceWithout
    rw [h4]
    rfl
  have hot : (othersOf (c := c) s.pop [idx] 5) g = .error .value := by
    unfold othersOf
    show (choiceWithout (c := c) s.pop.length [idx] 5 false >>= fun l => l.mapM (nth s.pop)) g = _
    simp only [bind, StateT.bind, Except.bind, hch]
  unfold mk
  simp only [h3]
  simp only [show ¬ (3 : Nat) = 0 from by omega, show ¬ (3 : Nat) = 1 from by omega, show ¬ (3 : Nat) = 2 from by omega, if_false,
    if_true, bind, StateT.bind, Except.bind, hot]

end OriginalDE

/-- `pos_new[k] = v` -/
def setCoord (x : Vec d K) (k : Nat) (v : K) : Vec d K := fun j => if j.val = k then v else x j

/-- `x[k]` for an index drawn below `n_dims` -/
def coordAt (x : Vec d K) (k : Nat) : K := if h : k < d then x ⟨k, h⟩ else 0

/-- `np.where(random(n_dims) < cr, x_new, x)`; `j = integers(0, n_dims)`; `pos_new[j] = x_new[j]`
(`mealpy/evolutionary_based/DE.py:280-282`) -/
def binCross (cr : K) (new x : Vec d K) : D c (Vec d K) := do
  let r ← randomVec
  let k ← index d
  pure (fun j => if j.val = k then new j else if r j < cr then new j else x j)

theorem DT.binCross (hE : c.E.Lawful) {Er : Err → Prop} (hd : 0 < d) {cr : K} {x y : Vec d K} :
    DT Er (Mealpy.binCross cr x y : D c _) (fun _ => True) := by
  unfold Mealpy.binCross; dgo

macro_rules
  | `(tactic| dprim) => `(tactic| (at_head binCross; exact DT.binCross (by assumption) (by assumption)))

namespace JADE

/-- `miu_f, miu_cr, pt, ap in (0, 1)` (`mealpy/evolutionary_based/DE.py:227-232`) -/
structure Params (K : Type) [Num K] where
  miuF : K
  miuCr : K
  pt : K
  ap : K
  miuF_ok : (0 : K) < miuF ∧ miuF < 1
  miuCr_ok : (0 : K) < miuCr ∧ miuCr < 1
  pt_ok : (0 : K) < pt ∧ pt < 1
  ap_ok : (0 : K) < ap ∧ ap < 1

/-- `dyn_miu_cr`, `dyn_miu_f`, `dyn_pop_archive`, and the lists `list_cr`, `list_f` of the current epoch -/
structure Attr (d : Nat) (K : Type) where
  cr : K
  f : K
  archive : List (Agent d K Unit)
  listCr : List K
  listF : List K

/-- the loop `while True: f = cauchy.rvs(...)` (`mealpy/evolutionary_based/DE.py:263-269`): a negative value is
drawn again.  The model draws the accepted value at once, as a distribution of its own; that the loop may
run for ever is not modelled. -/
def cauchyF (loc : K) : D c K := do
  let f ← dist "cauchy, first nonnegative" [loc, 0.1]
  pure (if f > 1 then 1 else f)

/-- `top = int(self.pop_size * self.pt)` -/
def top (c : Cfg d K) (p : Params K) : Int := Num.floor (Num.ofNat c.popSize * p.pt)

/-- one trial position with its `f` and `cr` (`mealpy/evolutionary_based/DE.py:261-283`) -/
def trial (p : Params K) (sorted : List (Agent d K Unit)) (s : St c Unit (Attr d K)) (idx : Nat) : D c (Vec d K × K × K) := do
  let cr ← normal s.ext.cr 0.1
  let cr := clip cr 0 1
  let f ← cauchyF s.ext.f
  let t ← integers 0 (top c p)
  let best ← nth sorted t.toNat
  let r1 ← pickWithout c.popSize [idx]
  let all := s.pop ++ s.ext.archive
  let r2 ← pickWithout all.length [idx, r1]
  let x1 ← nth s.pop r1
  let x2 ← nth all r2
  let x ← nth s.pop idx
  let new : Vec d K := fun j => x.sol j + f * (best.sol j - x.sol j) + f * (x1.sol j - x2.sol j)
  let pos ← binCross cr new x.sol
  let pos ← correct pos
  pure (pos, f, cr)

/-- `lehmer_mean` (`mealpy/evolutionary_based/DE.py:242-244`) -/
def lehmer (l : List K) : K := if sumL l = 0 then 0 else sumL (l.map (fun x => Num.pow x 2)) / sumL l

/-- the archive is cut back to `pop_size` (`mealpy/evolutionary_based/DE.py:296-303`) -/
def cutArchive (n : Nat) (l : List (Agent d K Unit)) : D c (List (Agent d K Unit)) :=
  if n < l.length then do
    let drop ← choice l.length (l.length - n) false
    pure ((l.zipIdx.filter (fun p => p.2 ∉ drop)).map (·.1))
  else pure l

/-- `JADE.evolve` (`mealpy/evolutionary_based/DE.py:246-312`).  The population does not change while the trial
positions are built, so they are built first also in `single` mode. -/
def evolve (p : Params K) (ep : Nat) : M c Unit (Attr d K) Unit := do
  modExt (fun y => { y with listCr := [], listF := [] })
  let s ← get
  let sorted ← draw (sortedPop s.pop)
  let trials ← draw (buildPending c.popSize (trial p sorted s))
  let new ← buildEval c.popSize (fun _ idx => do
    let t ← nth trials idx
    pure (t.1, ()))
  compareLoop c.popSize new (fun idx old y =>
    { y with archive := y.archive ++ [old]
             listCr := y.listCr ++ [(trials[idx]?.map (fun t => t.2.2)).getD 0]
             listF := y.listF ++ [(trials[idx]?.map (fun t => t.2.1)).getD 0] })
  let s ← get
  let archive ← draw (cutArchive c.popSize s.ext.archive)
  modExt (fun y =>
    { y with
      archive := archive
      cr := if y.listCr.length = 0 then (1 - p.ap) * y.cr + p.ap * 0.5
            else (1 - p.ap) * y.cr + p.ap * meanL y.listCr
      f := if y.listF.length = 0 then (1 - p.ap) * y.f + p.ap * 0.5
           else (1 - p.ap) * y.f + p.ap * lehmer y.listF })

/-- `JADE` (`mealpy/evolutionary_based/DE.py:166-312`), `initialize_variables` (`:236-239`) -/
def algo (p : Params K) : Algo c Unit (Attr d K) :=
  Algo.withState false (pure ⟨p.miuCr, p.miuF, [], [], []⟩) (evolve p)

theorem trial_dt (hE : c.E.Lawful) (hP : c.P.Lawful) (hd : 0 < d) (p : Params K) (hc : Accepted c 5)
    (ht : 0 < top c p ∧ top c p ≤ c.popSize)
    {sorted : List (Agent d K Unit)} {s : St c Unit (Attr d K)} {i : Nat} (hl : s.pop.length = c.popSize)
    (hsl : sorted.length = c.popSize) (hi : i < c.popSize) :
    DT noErr (trial p sorted s i) (fun t => Feas c t.1) := by
  have hpop := hc.pop
  have hal : (s.pop ++ s.ext.archive).length = s.pop.length + s.ext.archive.length := List.length_append
  unfold trial cauchyF
  dgo

theorem cut_dt (hE : c.E.Lawful) {n : Nat} {l : List (Agent d K Unit)} :
    DT noErr (cutArchive n l : D c _) (fun _ => True) := by
  unfold cutArchive
  dgo

theorem ok (hE : c.E.Lawful) (hP : c.P.Lawful) (hd : 0 < d) (hc : Accepted c 5) (p : Params K)
    (ht : 0 < top c p ∧ top c p ≤ c.popSize) :
    (algo p : Algo c Unit (Attr d K)).Ok (FA c) JT JT JT c.popSize c.popSize c.popSize := by
  refine Algo.withState_ok hE hP (DT.pure trivial) fun ep h1 h2 => IT.pt ?_
  unfold evolve
  refine IT.bind0 (IT.modExt fun _ _ => trivial) fun _ _ => ?_
  refine IT.bind0 IT.get fun s hs => ?_
  have hl := hs.len
  refine IT.bind0 (IT.draw (DT.sortedPop hE)) fun sorted hso => ?_
  refine IT.bind0 (IT.draw (buildPending_dt fun i hi => trial_dt hE hP hd p hc ht hl (by omega) hi)) fun trials htr => ?_
  refine IT.evalCompareThen hE (fun s i _ _ hi => ?_) (fun _ _ _ _ _ => trivial) (fun _ _ _ _ _ => trivial) ?_
  · refine DT.bind (DT.nth_mem (by omega)) fun t ht => ?_
    exact DT.pure (FA.mkOk (htr.2 t ht))
  · refine IT.bind0 IT.get fun s hs => ?_
    refine IT.bindD (cut_dt hE) fun l => ?_
    exact IT.modExt fun _ _ => trivial

theorem framed (hE : c.E.Lawful) (p : Params K) (ep : Nat) : Framed true (evolve p ep : M c Unit (Attr d K) Unit) := by
  unfold evolve; framed

/-- `pop_size * pt < 1`: nobody to choose `x_best` from -/
theorem trial_raises (p : Params K) (ht : top c p ≤ 0) (sorted : List (Agent d K Unit)) (s : St c Unit (Attr d K))
    (idx : Nat) (g : c.E.σ × c.P.S) : trial p sorted s idx g = .error .value := by
  unfold trial cauchyF integers
  simp only [if_neg (show ¬ (0 : Int) < top c p by omega)]
  rfl

end JADE

namespace SADE

/-- the attributes of `initialize_variables` (`mealpy/evolutionary_based/DE.py:367-373`) -/
structure Attr (K : Type) where
  ns1 : Nat
  ns2 : Nat
  nf1 : Nat
  nf2 : Nat
  crm : K
  p1 : K
  listCr : List K

/-- one trial position, with its `cr` and the strategy used (`mealpy/evolutionary_based/DE.py:387-412`).  The
rejection loop for `f` is one draw of the accepted value, as in `JADE`. -/
def trial (s : St c Unit (Attr K)) (idx : Nat) : D c (Vec d K × K × Bool) := do
  let cr ← normal s.ext.crm 0.1
  let cr := clip cr 0 1
  let f ← dist "normal, first nonnegative" [0.5, 0.3]
  let f := if f > 1 then 1 else f
  let (id1, id2, id3) ← choose3Without c.popSize [idx]
  let x1 ← nth s.pop id1
  let x2 ← nth s.pop id2
  let x3 ← nth s.pop id3
  let x ← nth s.pop idx
  let r ← random
  if r < s.ext.p1 then do
    let pos ← binCross cr (fun j => x1.sol j + f * (x2.sol j - x3.sol j)) x.sol
    let pos ← correct pos
    pure (pos, cr, true)
  else do
    let pos ← binCross cr (fun j => x.sol j + f * (s.gbest.sol j - x.sol j) + f * (x1.sol j - x2.sol j)) x.sol
    let pos ← correct pos
    pure (pos, cr, false)

/-- `SADE.evolve` (`mealpy/evolutionary_based/DE.py:375-438`).  As in `JADE` all trial positions are built first.
The last two conditions compare `epoch / 5` and `epoch / 50` with 0; they never hold, since `epoch` starts at 1. -/
def evolve (ep : Nat) : M c Unit (Attr K) Unit := do
  let s ← get
  let trials ← draw (buildPending c.popSize (trial s))
  let new ← buildEval c.popSize (fun _ idx => do
    let t ← nth trials idx
    pure (t.1, ()))
  compareLoop c.popSize new
    (fun idx _ y =>
      if (trials[idx]?.map (fun t => t.2.2)).getD true then { y with ns1 := y.ns1 + 1 }
      else { y with ns2 := y.ns2 + 1, listCr := y.listCr ++ [(trials[idx]?.map (fun t => t.2.1)).getD 0] })
    (fun idx _ y =>
      if (trials[idx]?.map (fun t => t.2.2)).getD true then { y with nf1 := y.nf1 + 1 } else { y with nf2 := y.nf2 + 1 })
  if ep = 0 then
    modExt (fun y =>
      let q : K := Num.ofNat (y.ns1 * (y.ns2 + y.nf2))
      { y with
          crm := meanL y.listCr, listCr := [], ns1 := 0, ns2 := 0, nf1 := 0, nf2 := 0
          p1 := q / (Num.ofNat (y.ns2 * (y.ns1 + y.nf1)) + q) })
  else pure ()

/-- `SADE` (`mealpy/evolutionary_based/DE.py:315-438`) -/
def algo : Algo c Unit (Attr K) := Algo.withState false (pure ⟨0, 0, 0, 0, 0.5, 0.5, []⟩) evolve

theorem ok (hE : c.E.Lawful) (hP : c.P.Lawful) (hd : 0 < d) (hc : Accepted c 5) :
    (algo : Algo c Unit (Attr K)).Ok (FA c) JT JT JT c.popSize c.popSize c.popSize := by
  have hpop := hc.pop
  refine Algo.withState_ok hE hP (DT.pure trivial) fun ep h1 h2 => IT.pt ?_
  unfold evolve
  refine IT.bind0 IT.get fun s hs => ?_
  have hl := hs.len
  refine IT.bind0 (IT.draw (buildPending_dt (Q := fun t => Feas c t.1) fun i hi => ?_)) fun trials htr => ?_
  · unfold trial
    dgo
  refine IT.evalCompareThen hE (fun s i _ _ hi => ?_) (fun _ _ _ _ _ => trivial) (fun _ _ _ _ _ => trivial) ?_
  · refine DT.bind (DT.nth_mem (by omega)) fun t ht => ?_
    exact DT.pure (FA.mkOk (htr.2 t ht))
  · exact IT.iteS (fun _ => IT.modExt fun _ _ => trivial) (fun _ => IT.pure trivial)

theorem framed (hE : c.E.Lawful) (ep : Nat) : Framed true (evolve ep : M c Unit (Attr K) Unit) := by
  unfold evolve; framed

end SADE

end Mealpy
