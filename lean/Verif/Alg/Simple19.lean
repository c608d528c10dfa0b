import Verif.Alg.Kit19
import Verif.Alg.Simple13

/-!
# Coronavirus herds, water cycles and sea lions

`OriginalCHIO`, `DevCHIO`, `OriginalWCA`, `ModifiedSLO` and `ImprovedSLO`.
-/

set_option linter.unusedSectionVars false
set_option linter.unusedVariables false

namespace Mealpy
open Spec

variable {d : Nat} {K : Type} [Num K] {c : Cfg d K}

namespace OriginalCHIO

/-- the hyper-parameters (`mealpy/human_based/CHIO.py:65-66`) -/
structure Params (K : Type) where
  brr : K
  maxAge : Nat

/-- `immunity_type_list`, `age_list` and `finished` (`mealpy/human_based/CHIO.py:69-72`) -/
structure Vars where
  types : List Nat
  ages : List Nat
  finished : Bool

/-- `initialize_variables` (`mealpy/human_based/CHIO.py:69-72`) -/
def initVars : D c Vars := do
  let ts ← repM c.popSize (fun _ => index 3)
  pure ⟨ts, List.replicate c.popSize 0, false⟩

/-- `np.where(types == t)[0]` (`mealpy/human_based/CHIO.py:88`) -/
def ofType (types : List Nat) (t : Nat) : List Nat := (List.range types.length).filter (fun i => types[i]? = some t)

/-- the loop over the dimensions of one agent: the position, the types, whether it met an infected one, `self.finished` and whether the
loop was left by `break` (`mealpy/human_based/CHIO.py:85-104`) -/
structure Scan (d : Nat) (K : Type) where
  pos : Vec d K
  types : List Nat
  corona : Bool
  finished : Bool
  stop : Bool

/-- a random third of the population becomes of type `t` (`mealpy/human_based/CHIO.py:201-203`) -/
def refill (types : List Nat) (t : Nat) : D c (List Nat) := do
  let k : Int := Num.trunc (0.33 * ♯c.popSize : K)
  let l ← choice c.popSize k.toNat false
  pure (l.foldl (fun ts i => ts.set i t) types)

/-- coordinate `j` of agent `i` moves relative to agent `k` (`mealpy/human_based/CHIO.py:94`) -/
def towards (pop : List (Agent d K Unit)) (i k : Nat) (j : Fin d) (t : Scan d K) : D c (Scan d K) := do
  let a ← nth pop i
  let b ← nth pop k
  let u ← uniform 0 1
  pure { t with pos := Function.update t.pos j (a.sol j + u * (a.sol j - b.sol j)) }

/-- one coordinate; `dev` is true in `DevCHIO`, which refills an empty group where `OriginalCHIO` stops or raises
(`mealpy/human_based/CHIO.py:86-104` and `197-219`) -/
def gene (dev : Bool) (p : Params K) (pop : List (Agent d K Unit)) (i : Nat) (j : Fin d) (t : Scan d K) : D c (Scan d K) := do
  let r ← uniform 0 1
  if r < 1 / 3 * p.brr then
    if (ofType t.types 1).isEmpty ∧ dev = false then pure { t with finished := true, stop := true }
    else do
      let ts ← (if (ofType t.types 1).isEmpty then refill t.types 1 else pure t.types : D c (List Nat))
      let k ← pick (ofType ts 1)
      let t ← towards pop i k j { t with types := ts }
      pure { t with corona := true }
  else if 1 / 3 * p.brr ≤ r ∧ r < 2 / 3 * p.brr then do
    let ts ← (if (ofType t.types 0).isEmpty ∧ dev = true then refill t.types 0 else pure t.types : D c (List Nat))
    let k ← pick (ofType ts 0)
    towards pop i k j { t with types := ts }
  else if 2 / 3 * p.brr ≤ r ∧ r < p.brr then
    if (ofType t.types 2).isEmpty then dthrow .value
    else do
      let fits := (ofType t.types 2).map (fun k => (pop.map (·.fit)).getD k 0)
      let k ← nth (ofType t.types 2) (argminL fits)
      towards pop i k j t
  else pure t

/-- the loop over the agents: the positions so far, the types, `is_corona_list`, `self.finished` and whether the loop was left by
`break` (`mealpy/human_based/CHIO.py:81-111`) -/
structure Herd (d : Nat) (K : Type) where
  pend : List (Vec d K)
  types : List Nat
  corona : List Bool
  finished : Bool
  stop : Bool

/-- one agent (`mealpy/human_based/CHIO.py:83-111`) -/
def infect (dev : Bool) (p : Params K) (pop : List (Agent d K Unit)) (i : Nat) (h : Herd d K) : D c (Herd d K) :=
  if h.stop then pure h
  else do
    let a ← nth pop i
    let t ← iter d (fun j t => if hj : j < d then (if t.stop then pure t else gene dev p pop i ⟨j, hj⟩ t) else pure t)
      (⟨a.sol, h.types, false, h.finished, false⟩ : Scan d K)
    if t.finished then pure { h with types := t.types, corona := h.corona ++ [t.corona], finished := true, stop := true }
    else do
      let pos ← correct t.pos
      pure { h with pend := h.pend ++ [pos], types := t.types, corona := h.corona ++ [t.corona] }

/-- all agents (`mealpy/human_based/CHIO.py:81-111`) -/
def scan (dev : Bool) (p : Params K) (s : St c Unit Vars) : D c (Herd d K) :=
  iter c.popSize (infect dev p s.pop) ⟨[], s.ext.types, [], s.ext.finished, false⟩

/-- selection, immunity and age of one agent (`mealpy/human_based/CHIO.py:116-135`) -/
def settle (p : Params K) (new : List (Agent d K Unit)) (corona : List Bool) (i : Nat) : M c Unit Vars Unit := do
  let a ← draw (nth new i)
  let old ← popAt i
  let _ ← (if compareTarget a.tgt old.tgt c.P.mm then setAt i a
    else modExt (fun y => { y with ages := y.ages.modify i (· + 1) }) : M c Unit Vars Unit)
  let s ← get
  let mean := meanL (s.pop.map (·.fit))
  let _ ← (if compareFitness a.fit mean c.P.mm ∧ s.ext.types[i]? = some 0 ∧ corona[i]? = some true then
    modExt (fun y => { y with types := y.types.set i 1, ages := y.ages.set i 1 }) else pure () : M c Unit Vars Unit)
  let s ← get
  let _ ← (if compareFitness mean a.fit c.P.mm ∧ s.ext.types[i]? = some 1 then
    modExt (fun y => { y with types := y.types.set i 2, ages := y.ages.set i 0 }) else pure () : M c Unit Vars Unit)
  let s ← get
  if p.maxAge ≤ s.ext.ages.getD i 0 ∧ s.ext.types[i]? = some 1 then do
    let b ← liftB (generateAgent (fun _ => pure ()))
    setAt i b
    modExt (fun y => { y with types := y.types.set i 0, ages := y.ages.set i 0 })

/-- `OriginalCHIO.evolve` (`mealpy/human_based/CHIO.py:74-135`). Once `finished`, every later epoch stops at its first agent. -/
def evolve (p : Params K) (_ep : Nat) : M c Unit Vars Unit := do
  let s ← get
  let h ← draw (scan false p s)
  modExt (fun y => { y with types := h.types, finished := h.finished })
  let new ← evalAll (h.pend.map (fun x => (x, ())))
  let more ← liftB (generatePopulation (fun _ => pure ()) (c.popSize - h.pend.length))
  iter c.popSize (fun i _ => settle p (new ++ more) h.corona i) ()

/-- the positions are in the box, at most one for each agent, and one for each unless the loop was left -/
structure Ok (c : Cfg d K) (n : Nat) (h : Herd d K) : Prop where
  len : h.pend.length ≤ n
  full : h.stop = false → h.pend.length = n
  box : ∀ x ∈ h.pend, Feas c x

section

variable {dev : Bool} {p : Params K} {pop : List (Agent d K Unit)} {i : Nat} {es : List Err}

theorem ofType_lt {types : List Nat} {t k : Nat} (h : k ∈ ofType types t) : k < types.length := by
  unfold ofType at h
  exact List.mem_range.1 (List.mem_filter.1 h).1

theorem foldl_set_length (l : List Nat) (t : Nat) : ∀ ts : List Nat, (l.foldl (fun ts i => ts.set i t) ts).length = ts.length := by
  induction l with
  | nil => intro ts; rfl
  | cons a l ih => intro ts; rw [List.foldl_cons, ih, List.length_set]

theorem dt_refill (hE : c.E.Lawful) {types : List Nat} {t : Nat} : DT (only [.value]) (refill types t : D c _) (fun ts => ts.length = types.length) := by
  unfold refill
  exact DT.bind (DT.choice_err hE (.head _)) fun l _ => DT.pure (foldl_set_length _ _ _)

/-- `types` keeps its length, and `finished` is raised only together with `stop` -/
def Same (dev : Bool) (t0 t : Scan d K) : Prop :=
  t.types.length = t0.types.length ∧ (dev = true → t.finished = t0.finished)

theorem dt_towards {k : Nat} {j : Fin d} {t : Scan d K} (hi : i < pop.length) (hk : k < pop.length) :
    DT (only [.value]) (towards pop i k j t : D c _) (fun t' => t'.types = t.types ∧ t'.finished = t.finished) := by
  unfold towards
  exact DT.bind (DT.nth_mem hi) fun a _ => DT.bind (DT.nth_mem hk) fun b _ => DT.bind DT.uniform' fun u _ => DT.pure ⟨rfl, rfl⟩

theorem dt_gene (hE : c.E.Lawful) {j : Fin d} {t : Scan d K} (hi : i < pop.length) (hl : t.types.length = pop.length) :
    DT (only [.value]) (gene dev p pop i j t : D c _) (Same dev t) := by
  unfold gene
  refine DT.bind DT.uniform' fun r _ => DT.ite (fun _ => DT.ite (fun h => DT.pure ⟨rfl, fun e => ?_⟩) fun _ => ?_) fun _ => DT.ite (fun _ => ?_) fun _ =>
    DT.ite (fun _ => DT.ite (fun _ => DT.throw (.head _)) fun h => ?_) fun _ => DT.pure ⟨rfl, fun _ => rfl⟩
  · rw [h.2] at e
    exact absurd e (by decide)
  · refine DT.bind (R := fun ts => ts.length = t.types.length) (DT.ite (fun _ => dt_refill hE) fun _ => DT.pure rfl) fun ts hts => ?_
    refine DT.bind (DT.pick_err hE (.head _)) fun k hk => ?_
    have := ofType_lt hk
    exact DT.bind (dt_towards hi (by omega)) fun t' ht => DT.pure ⟨by show t'.types.length = _; rw [ht.1]; exact hts, fun _ => ht.2⟩
  · refine DT.bind (R := fun ts => ts.length = t.types.length) (DT.ite (fun _ => dt_refill hE) fun _ => DT.pure rfl) fun ts hts => ?_
    refine DT.bind (DT.pick_err hE (.head _)) fun k hk => ?_
    have := ofType_lt hk
    exact DT.mono (dt_towards hi (by omega)) fun t' ht => ⟨by rw [ht.1]; exact hts, fun _ => ht.2⟩
  · have h0 : 0 < (ofType t.types 2).length := by
      rcases hh : ofType t.types 2 with _ | ⟨a, l⟩
      · rw [hh] at h; exact absurd rfl h
      · simp
    have h1 := argminL_lt (l := (ofType t.types 2).map (fun k => (pop.map (·.fit)).getD k 0)) (by rw [List.length_map]; exact h0)
    rw [List.length_map] at h1
    refine DT.bind (DT.nth_mem h1) fun k hk => ?_
    have := ofType_lt hk
    exact DT.mono (dt_towards hi (by omega)) fun t' ht => ⟨by rw [ht.1], fun _ => ht.2⟩

/-- what `scan` keeps -/
structure Keeps (c : Cfg d K) (dev : Bool) (m : Nat) (n : Nat) (h : Herd d K) : Prop extends Ok c n h where
  types : h.types.length = m
  calm : dev = true → h.finished = false ∧ h.stop = false

theorem dt_infect (hE : c.E.Lawful) (hP : c.P.Lawful) {h : Herd d K} (hi : i < pop.length) (hk : Keeps c dev pop.length i h) :
    DT (only [.value]) (infect dev p pop i h : D c _) (Keeps c dev pop.length (i + 1)) := by
  unfold infect
  refine DT.ite (fun hs => DT.pure ⟨⟨by have := hk.len; omega, fun h' => by rw [hs] at h'; exact absurd h' (by decide), hk.box⟩, hk.types, hk.calm⟩) fun hs => ?_
  refine DT.bind (DT.nth_mem hi) fun a _ => DT.bind (DT.iter (I := fun _ (t : Scan d K) => t.types.length = pop.length ∧ (dev = true → t.finished = false)) _
    ⟨hk.types, fun e => (hk.calm e).1⟩ fun j t hj ht => ?_) fun t ht => ?_
  · rw [dif_pos hj]
    exact DT.ite (fun _ => DT.pure ht) fun _ => DT.mono (dt_gene hE hi ht.1) fun t' ht' => ⟨ht'.1.trans ht.1, fun e => (ht'.2 e).trans (ht.2 e)⟩
  · have hlen := hk.len
    refine DT.ite (fun hf => DT.pure ⟨⟨by show h.pend.length ≤ _; omega, fun h' => (by cases h'), hk.box⟩, ht.1, fun e => ?_⟩) fun hf => DT.bind (DT.correct hP) fun pos hp =>
      DT.pure ⟨⟨?_, fun h' => ?_, fun x hx => ?_⟩, ht.1, hk.calm⟩
    · rw [ht.2 e] at hf
      exact absurd hf (by decide)
    · show (h.pend ++ [pos]).length ≤ _
      simp; omega
    · show (h.pend ++ [pos]).length = _
      rw [List.length_append, hk.full h']; rfl
    · rcases List.mem_append.1 hx with hx | hx
      · exact hk.box x hx
      · rw [List.mem_singleton.1 hx]; exact hp

/-- as many types and ages as agents; `DevCHIO` never finishes -/
structure Held (c : Cfg d K) (dev : Bool) (y : Vars) : Prop where
  types : y.types.length = c.popSize
  ages : y.ages.length = c.popSize
  calm : dev = true → y.finished = false

theorem dt_scan (hE : c.E.Lawful) (hP : c.P.Lawful) {s : St c Unit Vars} (hl : s.pop.length = c.popSize) (hy : Held c dev s.ext) :
    DT (only [.value]) (scan dev p s : D c _) (Keeps c dev c.popSize c.popSize) := by
  unfold scan
  have := DT.iter (Er := only [.value]) (c := c) (f := infect dev p s.pop) (I := fun i (h : Herd d K) => Keeps c dev s.pop.length i h) c.popSize
    (a := ⟨[], s.ext.types, [], s.ext.finished, false⟩) ⟨⟨le_rfl, fun _ => rfl, by simp⟩, by rw [hl]; exact hy.types, fun e => ⟨hy.calm e, rfl⟩⟩
    fun i h hi hk => dt_infect hE hP (by omega) hk
  rw [hl] at this
  exact this

theorem dt_initVars (hE : c.E.Lawful) {Er : Err → Prop} : DT Er (initVars : D c _) (Held c dev) := by
  unfold initVars
  exact DT.bind (DT.repM fun _ _ => DT.index hE (by omega)) fun ts hts => DT.pure ⟨hts.1, by simp, fun _ => rfl⟩

theorem wt_settle (hE : c.E.Lawful) (hP : c.P.Lawful) {new : List (Agent d K Unit)} {corona : List Bool} (hi : i < c.popSize) (hn : new.length = c.popSize) (hnew : ∀ a ∈ new, CF c a) :
    WT (only [.value]) (Inv.std c Unit (Held c dev)) 0 1 (settle p new corona i : M c Unit Vars Unit) (fun _ => True) := by
  unfold settle
  have hsz : ∀ n, (Inv.std c Unit (Held (c := c) dev)).size n → i < n := fun n hn => by
    have : n = c.popSize := hn
    omega
  refine WT.bind0 (WT.draw (DT.nth_mem (by omega))) fun a ha => WT.bind0 (WT.popAt hsz) fun old _ => WT.bind0 (R := fun _ => True) ?_ fun _ _ => ?_
  · exact WT.ite (fun _ => WT.setAt hsz (Inv.std_ag (hnew a ha))) fun _ => WT.modExt fun y hy => ⟨hy.types, by show (y.ages.modify _ _).length = _; rw [List.length_modify]; exact hy.ages, hy.calm⟩
  have hset : ∀ (t n : Nat) (y : Vars), Held c dev y → Held c dev { y with types := y.types.set i t, ages := y.ages.set i n } := fun t n y hy =>
    ⟨by show (y.types.set _ _).length = _; rw [List.length_set]; exact hy.types, by show (y.ages.set _ _).length = _; rw [List.length_set]; exact hy.ages, hy.calm⟩
  refine WT.bind0 WT.get fun s _ => WT.bind0 (R := fun _ => True) (WT.ite (fun _ => WT.modExt (hset 1 1)) fun _ => WT.pure trivial) fun _ _ => ?_
  refine WT.bind0 WT.get fun s _ => WT.bind0 (R := fun _ => True) (WT.ite (fun _ => WT.modExt (hset 2 0)) fun _ => WT.pure trivial) fun _ _ => ?_
  refine WT.bind0 WT.get fun s _ => WT.ite (fun _ => ?_) fun _ => WT.weaken (WT.pure trivial) (by omega) (by omega)
  refine WT.generateAgent_std hP (fun x hx => DT.pure trivial) (by omega) fun b hb => WT.weaken (WT.bind0 (WT.setAt hsz (Inv.std_ag hb)) fun _ _ => WT.modExt (hset 0 0)) (by omega) (by omega)

theorem framed_settle {new : List (Agent d K Unit)} {corona : List Bool} : Framed true (settle p new corona i : M c Unit Vars Unit) := by
  unfold settle; framed

end

macro_rules
  | `(tactic| fprim) => `(tactic| (at_last OriginalCHIO.settle; exact OriginalCHIO.framed_settle))

/-- `OriginalCHIO` (`mealpy/human_based/CHIO.py:12-135`) -/
def algo (p : Params K) : Algo c Unit Vars := Algo.full false (fun _ => pure ()) initVars (evolve p)

theorem wok (hE : c.E.Lawful) (hP : c.P.Lawful) (hc : Accepted c 5) (p : Params K) :
    (algo p : Algo c Unit Vars).WOk (only [.value]) (Inv.std c Unit (Held c false)) (Held c false) (Held c false) c.popSize c.popSize 0 0 c.popSize (c.popSize + c.popSize) := by
  have hpop := hc.pop
  unfold algo
  refine Algo.full_wok hE hP (by omega) (fun x hx => by dgo) (J := (Held c false)) (by exact dt_initVars hE) (fun ep hep1 hep2 => ?_)
  unfold evolve
  refine WT.bind0 WT.get fun s hs => WT.bind0 (WT.draw (dt_scan hE hP hs.len_std hs.ext)) fun h hh => WT.bind0 (WT.modExt fun y hy => ⟨hh.types, hy.ages, fun e => by cases e⟩) fun _ _ => ?_
  refine WT.bindS (WT.evalAll hE (fun q hq => ?_)) (by rw [List.length_map]; have := hh.len; omega) fun new hnew => ?_
  · obtain ⟨x, hx, rfl⟩ := List.mem_map.1 hq
    exact Inv.std_mk (hh.box x hx)
  rw [List.length_map] at hnew ⊢
  have hlen := hh.len
  refine WT.generatePopulation_std hE hP (fun x hx => DT.pure trivial) (by omega) fun more hmore => WT.iterU 0 1 (by omega) (by omega) fun i hi => wt_settle hE hP hi ?_ ?_
  · rw [List.length_append, hnew.1, hmore.1]; omega
  · intro a ha
    rcases List.mem_append.1 ha with ha | ha
    · exact ⟨(hnew.2 a ha).1, (hnew.2 a ha).2⟩
    · exact hmore.2 a ha

theorem framed (hE : c.E.Lawful) (p : Params K) (ep : Nat) : Framed true (evolve p ep : M c Unit Vars Unit) := by
  unfold evolve; framed

end OriginalCHIO

namespace DevCHIO

open OriginalCHIO (Params Vars initVars scan settle Held)

/-- `DevCHIO.evolve` (`mealpy/human_based/CHIO.py:185-248`) -/
def evolve (p : Params K) (_ep : Nat) : M c Unit Vars Unit := do
  let s ← get
  let h ← draw (scan true p s)
  modExt (fun y => { y with types := h.types, finished := h.finished })
  let new ← evalAll (h.pend.map (fun x => (x, ())))
  iter c.popSize (fun i _ => settle p new h.corona i) ()

/-- `DevCHIO` (`mealpy/human_based/CHIO.py:138-248`) -/
def algo (p : Params K) : Algo c Unit Vars := Algo.full false (fun _ => pure ()) initVars (evolve p)

theorem wok (hE : c.E.Lawful) (hP : c.P.Lawful) (hc : Accepted c 5) (p : Params K) :
    (algo p : Algo c Unit Vars).WOk (only [.value]) (Inv.std c Unit (Held c true)) (Held c true) (Held c true) c.popSize c.popSize 0 0 c.popSize (c.popSize + c.popSize) := by
  have hpop := hc.pop
  unfold algo
  refine Algo.full_wok hE hP (by omega) (fun x hx => by dgo) (J := (Held c true)) (by exact OriginalCHIO.dt_initVars hE) (fun ep hep1 hep2 => ?_)
  unfold evolve
  refine WT.bind0 WT.get fun s hs => WT.bind0 (WT.draw (OriginalCHIO.dt_scan hE hP hs.len_std hs.ext)) fun h hh => WT.bind0 (WT.modExt fun y hy => ⟨hh.types, hy.ages, fun e => (hh.calm e).1⟩) fun _ _ => ?_
  have hlen := hh.full (hh.calm rfl).2
  refine WT.bindS (WT.evalAll hE (fun q hq => ?_)) (by rw [List.length_map]; omega) fun new hnew => ?_
  · obtain ⟨x, hx, rfl⟩ := List.mem_map.1 hq
    exact Inv.std_mk (hh.box x hx)
  rw [List.length_map] at hnew ⊢
  exact WT.iterU 0 1 (by omega) (by omega) fun i hi => OriginalCHIO.wt_settle hE hP hi (by omega) fun a ha => ⟨(hnew.2 a ha).1, (hnew.2 a ha).2⟩

theorem framed (hE : c.E.Lawful) (p : Params K) (ep : Nat) : Framed true (evolve p ep : M c Unit Vars Unit) := by
  unfold evolve; framed

end DevCHIO

namespace OriginalWCA

/-- the hyper-parameters (`mealpy/system_based/WCA.py:80-82`) -/
structure Params (K : Type) where
  nsr : Nat
  wc : K
  dmax : K

/-- `pop_best`, `streams` and `ecc` (`mealpy/system_based/WCA.py:86-114`) -/
structure Vars (d : Nat) (K : Type) where
  best : List (Agent d K Unit)
  streams : List (List (Agent d K Unit))
  ecc : K

/-- `num_child_in_river_list` (`mealpy/system_based/WCA.py:98-101`) -/
def shares (best : List (Agent d K Unit)) (n : Nat) : List Int :=
  let costs := best.map (·.fit)
  let l := costs.map (fun x => Num.trunc (Num.ufunc "round" (Num.abs (x / sumL costs) * ♯n)))
  if l.sum < n then l.modify (l.length - 1) (· + (n - l.sum)) else l

/-- the streams of all rivers but the last one, and their indices (`mealpy/system_based/WCA.py:102-109`) -/
def divide (nums : List Int) (n : Nat) (i : Nat) (acc : List (List Nat) × List Nat) : D c (List (List Nat) × List Nat) := do
  let k ← nth nums i
  if k < 0 then dthrow .value
  else do
    let idx ← choiceWithout n acc.2 k.toNat false
    pure (acc.1 ++ [idx], acc.2 ++ idx)

/-- the streams of all rivers (`mealpy/system_based/WCA.py:98-114`) -/
def allot (p : Params K) (pop : List (Agent d K Unit)) : D c (List (List (Agent d K Unit))) := do
  let n := c.popSize - p.nsr
  let r ← iter (p.nsr - 1) (divide (shares (pop.take p.nsr) n) n) ([], [])
  let groups := r.1 ++ [rangeWithout n r.2]
  pure (groups.map (fun g => g.filterMap (fun k => (pop.drop p.nsr)[k]?)))

/-- `initialization` (`mealpy/system_based/WCA.py:86-114`); the `g_best` set here is set again by `after_initialization` -/
def initialization (p : Params K) (_ : Vars d K) (q : Option (List (Agent d K Unit))) : B c (List (Agent d K Unit) × Vars d K) := do
  let pop ← startPop (fun _ => pure ()) q
  let pop ← liftD (sortedPop pop)
  let streams ← liftD (allot p pop)
  pure (pop, ⟨pop.take p.nsr, streams, p.dmax⟩)

/-- the streams flow to their river (`mealpy/system_based/WCA.py:127-131`) -/
def flow (p : Params K) (river : Agent d K Unit) (streams : List (Agent d K Unit)) : D c (List (Vec d K × Unit)) :=
  repM streams.length (fun i => do
    let a ← nth streams i
    let u ← uniform 0 1
    let pos ← correct (fun j => a.sol j + u * p.wc * (river.sol j - a.sol j))
    pure (pos, ()))

/-- one river and its streams (`mealpy/system_based/WCA.py:124-144`) -/
def run (p : Params K) (g : Vec d K) (i : Nat) (v : Vars d K) : M c Unit (Vars d K) (Vars d K) := do
  let st ← draw (nth v.streams i)
  let r ← draw (nth v.best i)
  let pend ← draw (flow p r st)
  let new ← evalAll pend
  let b ← draw (bestAgent new)
  let r := if compareTarget b.tgt r.tgt c.P.mm then b else r
  let u ← draw (uniform 0 1)
  let x ← draw (correct (fun j => r.sol j + u * p.wc * (g j - r.sol j)))
  let a ← liftB (agentOf (fun _ => pure ()) x)
  let r := if compareTarget a.tgt r.tgt c.P.mm then a else r
  pure { v with best := v.best.set i r, streams := v.streams.set i new }

/-- evaporation and raining at river `i + 1` (`mealpy/system_based/WCA.py:146-152`) -/
def rain (g : Vec d K) (i : Nat) (v : Vars d K) : M c Unit (Vars d K) (Vars d K) := do
  let r ← draw (nth v.best (i + 1))
  let st ← draw (nth v.streams (i + 1))
  let dist : K := Num.sqrt (sumL ((List.finRange d).map (fun j => (g j - r.sol j) * (g j - r.sol j))))
  let wet ← draw (if dist < v.ecc then pure true else do
    let u ← random
    pure (decide (u < 0.1)) : D c Bool)
  if wet then do
    let child ← liftB (generateAgent (fun _ => pure ()))
    let l ← draw (sortedPop (st ++ [child]))
    let b ← draw (nth l 0)
    pure { v with best := v.best.set (i + 1) b, streams := v.streams.set (i + 1) (l.drop 1) }
  else pure v

/-- `OriginalWCA.evolve` (`mealpy/system_based/WCA.py:116-157`); the population is not read -/
def evolve (p : Params K) (_ep : Nat) : M c Unit (Vars d K) Unit := do
  let s ← get
  let v ← iter p.nsr (run p s.gbest.sol) s.ext
  let v ← iter (p.nsr - 1) (rain s.gbest.sol) v
  setPop (v.best ++ v.streams.flatten)
  modExt (fun _ => { v with ecc := v.ecc - v.ecc / ♯c.epoch })

/-- rivers and streams make up the population; `sz` are the numbers of streams -/
structure Ok (c : Cfg d K) (nsr : Nat) (sz : List Nat) (v : Vars d K) : Prop where
  best : v.best.length = nsr
  bestOk : ∀ a ∈ v.best, CF c a
  sizes : v.streams.map List.length = sz
  streamsOk : ∀ l ∈ v.streams, ∀ a ∈ l, CF c a

/-- `nsr` rivers with streams, `pop_size` agents altogether -/
def Made (c : Cfg d K) (nsr : Nat) (v : Vars d K) : Prop := ∃ sz : List Nat, sz.length = nsr ∧ nsr + sz.sum = c.popSize ∧ Ok c nsr sz v

section

variable {p : Params K}

/-- the exceptions -/
abbrev errs : List Err := [.value, .index]

theorem shares_length (best : List (Agent d K Unit)) (n : Nat) : (shares best n).length = best.length := by
  unfold shares
  dsimp only
  split <;> simp

theorem dt_divide (hE : c.E.Lawful) {nums : List Int} {n i : Nat} {acc : List (List Nat) × List Nat} (hi : i < nums.length)
    (h : acc.1.length = i ∧ acc.1.flatten = acc.2 ∧ acc.2.Nodup ∧ ∀ k ∈ acc.2, k < n) :
    DT (only errs) (divide nums n i acc : D c _) (fun acc => acc.1.length = i + 1 ∧ acc.1.flatten = acc.2 ∧ acc.2.Nodup ∧ ∀ k ∈ acc.2, k < n) := by
  unfold divide
  refine DT.bind (DT.nth_mem hi) fun k _ => DT.ite (fun _ => DT.throw (.head _)) fun _ => DT.bind (DT.choiceWithout_err hE (.head _)) fun idx hidx => DT.pure ⟨?_, ?_, ?_, ?_⟩
  · simp [h.1]
  · simp [h.2.1]
  · exact List.Nodup.append h.2.2.1 hidx.1 fun k hk hk' => (hidx.2 k hk').2 hk
  · intro k hk
    rcases List.mem_append.1 hk with hk | hk
    · exact h.2.2.2 k hk
    · exact (hidx.2 k hk).1

theorem dt_allot (hE : c.E.Lawful) (h2 : 2 ≤ p.nsr ∧ p.nsr ≤ c.popSize) {pop : List (Agent d K Unit)} (hl : pop.length = c.popSize) (hp : ∀ a ∈ pop, CF c a) :
    DT (only errs) (allot p pop : D c _) (fun l => l.length = p.nsr ∧ p.nsr + (l.map List.length).sum = c.popSize ∧ ∀ s ∈ l, ∀ a ∈ s, CF c a) := by
  unfold allot
  refine DT.bind (DT.iter (I := fun i (acc : List (List Nat) × List Nat) => acc.1.length = i ∧ acc.1.flatten = acc.2 ∧ acc.2.Nodup ∧ ∀ k ∈ acc.2, k < c.popSize - p.nsr) _
    ⟨rfl, rfl, List.nodup_nil, by simp⟩ fun i acc hi h => dt_divide hE (by rw [shares_length, List.length_take]; omega) h) fun r hr => DT.pure ⟨?_, ?_, ?_⟩
  · rw [List.length_map, List.length_append, hr.1]
    simp; omega
  · have hgl : ∀ g ∈ r.1 ++ [rangeWithout (c.popSize - p.nsr) r.2], ∀ k ∈ g, k < c.popSize - p.nsr := by
      intro g hg k hk
      rcases List.mem_append.1 hg with hg | hg
      · exact hr.2.2.2 k (hr.2.1 ▸ List.mem_flatten.2 ⟨g, hg, hk⟩)
      · rw [List.mem_singleton.1 hg] at hk
        exact (rangeWithout_mem.1 hk).1
    have hfl : ∀ g : List Nat, (∀ k ∈ g, k < c.popSize - p.nsr) → (g.filterMap (fun k => (pop.drop p.nsr)[k]?)).length = g.length := by
      intro g hg
      induction g with
      | nil => rfl
      | cons k g ih =>
        have hk : k < (pop.drop p.nsr).length := by
          rw [List.length_drop, hl]
          exact hg k (by simp)
        rw [List.filterMap_cons, List.getElem?_eq_getElem hk]
        simp only [List.length_cons]
        rw [ih fun k hk => hg k (by simp [hk])]
    rw [List.map_map, List.map_congr_left (f := List.length ∘ _) (g := List.length) fun g hg => hfl g (hgl g hg), ← List.length_flatten, List.flatten_append, hr.2.1]
    have := rangeWithout_length_eq hr.2.2.1 hr.2.2.2
    simp
    omega
  · intro s hs a ha
    obtain ⟨g, -, rfl⟩ := List.mem_map.1 hs
    obtain ⟨k, -, hk⟩ := List.mem_filterMap.1 ha
    exact hp a (List.mem_of_mem_drop (List.mem_of_getElem? hk))

theorem bt_rest (hE : c.E.Lawful) (h2 : 2 ≤ p.nsr ∧ p.nsr ≤ c.popSize) {pop : List (Agent d K Unit)} (hl : pop.length = c.popSize) (hp : ∀ a ∈ pop, CF c a) :
    BT (only errs) 0 0 (do
      let pop ← liftD (sortedPop pop)
      let streams ← liftD (allot p pop)
      pure (pop, (⟨pop.take p.nsr, streams, p.dmax⟩ : Vars d K)) : B c (List (Agent d K Unit) × Vars d K))
      (fun r => r.1.length = c.popSize ∧ (∀ a ∈ r.1, CF c a) ∧ Made c p.nsr r.2) := by
  refine BT.bind0 (BT.liftD (DT.sortedPop hE)) fun q hq => ?_
  have hq' : ∀ a ∈ q, CF c a := fun a ha => hp a ((hq.2 a).1 ha)
  refine BT.bind0 (BT.liftD (dt_allot hE h2 (hq.1.trans hl) hq')) fun l hs => BT.pure ⟨hq.1.trans hl, hq', _, ?_, hs.2.1, ?_, fun a ha => hq' a (List.mem_of_mem_take ha), rfl, hs.2.2⟩
  · rw [List.length_map]; exact hs.1
  · show (q.take p.nsr).length = _
    rw [List.length_take, hq.1]; omega

theorem bt_none (hE : c.E.Lawful) (hP : c.P.Lawful) (h2 : 2 ≤ p.nsr ∧ p.nsr ≤ c.popSize) {y : Vars d K} : BT (only errs) c.popSize c.popSize (initialization p y none : B c _)
    (fun r => r.1.length = c.popSize ∧ (∀ a ∈ r.1, CF c a) ∧ Made c p.nsr r.2) := by
  unfold initialization startPop
  exact BT.bindS (BT.generatePopulation hE hP fun x hx => DT.pure trivial) le_rfl fun pop hpop => BT.weaken (bt_rest hE h2 hpop.1 hpop.2) (by omega) (by omega)

theorem bt_some (hE : c.E.Lawful) (h2 : 2 ≤ p.nsr ∧ p.nsr ≤ c.popSize) {y : Vars d K} {pop : List (Agent d K Unit)} (hl : pop.length = c.popSize) (hp : ∀ a ∈ pop, CF c a) :
    BT (only errs) (c.popSize - c.popSize) (c.popSize - c.popSize) (initialization p y (some pop) : B c _)
      (fun r => r.1.length = c.popSize ∧ (∀ a ∈ r.1, CF c a) ∧ Made c p.nsr r.2) := by
  unfold initialization startPop
  exact BT.bind0 (BT.pure (R := fun q => q = pop) rfl) fun q hq => by subst hq; exact BT.weaken (bt_rest hE h2 hl hp) (by omega) (by omega)

theorem dt_flow (hP : c.P.Lawful) {r : Agent d K Unit} {st : List (Agent d K Unit)} : DT (only errs) (flow p r st : D c _) (fun l => l.length = st.length ∧ ∀ q ∈ l, Feas c q.1) := by
  unfold flow
  exact DT.repM fun i hi => DT.bind (DT.nth_mem hi) fun a _ => DT.bind DT.uniform' fun u _ => DT.bind (DT.correct hP) fun pos hp => DT.pure hp

theorem ok_set {sz : List Nat} {v : Vars d K} {n i : Nat} {b : Agent d K Unit} {st : List (Agent d K Unit)} (h : Ok c n sz v) (hb : CF c b) (hi : st.length = sz[i]?.getD st.length)
    (hst : ∀ a ∈ st, CF c a) : Ok c n sz { v with best := v.best.set i b, streams := v.streams.set i st } where
  best := by show (v.best.set _ _).length = _; rw [List.length_set]; exact h.best
  bestOk := fun a ha => (List.mem_or_eq_of_mem_set ha).elim (h.bestOk a) fun e => e ▸ hb
  sizes := by
    show (v.streams.set i st).map List.length = sz
    rw [List.map_set, h.sizes]
    refine List.ext_getElem? fun k => ?_
    rw [List.getElem?_set]
    split
    · rename_i hik
      subst hik
      split
      · rename_i hlt
        rw [List.getElem?_eq_getElem hlt] at hi ⊢
        rw [hi]; rfl
      · rename_i hlt
        rw [List.getElem?_eq_none (by omega)]
    · rfl
  streamsOk := fun l hl => (List.mem_or_eq_of_mem_set hl).elim (h.streamsOk l) fun e => e ▸ hst

theorem ok_size {sz : List Nat} {v : Vars d K} {n i : Nat} (h : Ok c n sz v) {st : List (Agent d K Unit)} (hs : v.streams[i]? = some st) : sz[i]? = some st.length := by
  rw [← h.sizes, List.getElem?_map, hs]; rfl

theorem wt_run (hE : c.E.Lawful) (hP : c.P.Lawful) {n : Nat} {sz : List Nat} {g : Vec d K} {i : Nat} {v : Vars d K} (hn : sz.length = n) (hi : i < n) (h : Ok c n sz v) {J : Vars d K → Prop} :
    WT (only errs) (Inv.std c Unit J) (sz.getD i 0 + 1) (sz.getD i 0 + 1) (run p g i v : M c Unit (Vars d K) (Vars d K)) (Ok c n sz) := by
  unfold run
  have hsl : v.streams.length = n := by rw [← hn, ← h.sizes, List.length_map]
  refine WT.bind0 (R := fun st => v.streams[i]? = some st) (WT.draw ?_) fun st hst => ?_
  · unfold Mealpy.nth
    rw [List.getElem?_eq_getElem (by omega)]
    exact DT.pure rfl
  have hsz := ok_size h hst
  have hgd : sz.getD i 0 = st.length := by rw [List.getD_eq_getElem?_getD, hsz]; rfl
  rw [hgd]
  refine WT.bind0 (WT.draw (DT.nth_mem (by rw [h.best]; exact hi))) fun r hr => WT.bind0 (WT.draw (dt_flow hP)) fun pend hpend => ?_
  refine WT.bindS (WT.evalAll hE fun q hq => Inv.std_mk (hpend.2 q hq)) (by omega) fun new hnew => ?_
  rw [hpend.1] at hnew ⊢
  have hnew' : ∀ a ∈ new, CF c a := fun a ha => ⟨(hnew.2 a ha).1, (hnew.2 a ha).2⟩
  refine WT.bind0 (WT.draw (DT.bestAgent_err hE (.tail _ (.head _)))) fun b hb => ?_
  dsimp only
  refine WT.bind0 (WT.draw DT.uniform') fun u _ => WT.bind0 (WT.draw (DT.correct hP)) fun x hx => WT.agentOf_std hx (DT.pure trivial) (by omega) fun a ha => ?_
  refine WT.weaken (WT.pure (ok_set h ?_ ?_ hnew')) (by omega) (by omega)
  · have h1 : CF c (if compareTarget b.tgt r.tgt c.P.mm then b else r) := by
      split
      · exact hnew' b hb
      · exact h.bestOk r hr
    by_cases hc : compareTarget a.tgt (if compareTarget b.tgt r.tgt c.P.mm then b else r).tgt c.P.mm
    · rw [if_pos hc]; exact ha
    · rw [if_neg hc]; exact h1
  · rw [hsz, hnew.1]; rfl

theorem wt_rain (hE : c.E.Lawful) (hP : c.P.Lawful) {n : Nat} {sz : List Nat} {g : Vec d K} {i : Nat} {v : Vars d K} (hn : sz.length = n) (hi : i + 1 < n) (h : Ok c n sz v) {J : Vars d K → Prop} :
    WT (only errs) (Inv.std c Unit J) 0 1 (rain g i v : M c Unit (Vars d K) (Vars d K)) (Ok c n sz) := by
  unfold rain
  have hsl : v.streams.length = n := by rw [← hn, ← h.sizes, List.length_map]
  refine WT.bind0 (WT.draw (DT.nth_mem (by rw [h.best]; exact hi))) fun r hr => ?_
  refine WT.bind0 (R := fun st => v.streams[i + 1]? = some st) (WT.draw ?_) fun st hst => ?_
  · unfold Mealpy.nth
    rw [List.getElem?_eq_getElem (by omega)]
    exact DT.pure rfl
  have hsz := ok_size h hst
  dsimp only
  refine WT.bind0 (R := fun _ => True) (WT.draw (DT.ite (fun _ => DT.pure trivial) fun _ => DT.bind DT.random' fun u _ => DT.pure trivial)) fun wet _ => ?_
  refine WT.ite (fun _ => ?_) fun _ => WT.weaken (WT.pure h) (by omega) (by omega)
  refine WT.generateAgent_std hP (fun x hx => DT.pure trivial) (by omega) fun child hchild => WT.bind0 (WT.draw (DT.sortedPop hE)) fun l hl => ?_
  have hlm : ∀ a ∈ l, CF c a := by
    intro a ha
    rcases List.mem_append.1 ((hl.2 a).1 ha) with ha | ha
    · exact h.streamsOk st (List.mem_of_getElem? hst) a ha
    · rw [List.mem_singleton.1 ha]; exact hchild
  have hll : l.length = st.length + 1 := by rw [hl.1]; simp
  refine WT.bind0 (WT.draw (DT.nth_mem (by omega))) fun b hb => WT.weaken (WT.pure (ok_set h (hlm b hb) ?_ fun a ha => hlm a (List.mem_of_mem_drop ha))) (by omega) (by omega)
  rw [hsz, List.length_drop, hll]; rfl

theorem framed_run {g : Vec d K} {i : Nat} {v : Vars d K} (hE : c.E.Lawful) : Framed true (run p g i v : M c Unit (Vars d K) (Vars d K)) := by
  unfold run; framed

theorem framed_rain {g : Vec d K} {i : Nat} {v : Vars d K} : Framed true (rain g i v : M c Unit (Vars d K) (Vars d K)) := by
  unfold rain; framed

theorem sum_succ (sz : List Nat) : ((List.range sz.length).map (fun i => sz.getD i 0 + 1)).sum = sz.length + sz.sum := by
  have : (List.range sz.length).map (fun i => sz.getD i 0 + 1) = sz.map (· + 1) := by
    refine List.ext_getElem (by simp) fun i h1 h2 => ?_
    have : i < sz.length := by simpa using h1
    simp [List.getElem?_eq_getElem this]
  rw [this]
  induction sz with
  | nil => rfl
  | cons a l ih => simp only [List.map_cons, List.sum_cons, List.length_cons] at *; rw [ih (by
      refine List.ext_getElem (by simp) fun i h1 h2 => ?_
      have : i < l.length := by simpa using h1
      simp [List.getElem?_eq_getElem this])]; omega

end

macro_rules
  | `(tactic| fprim) => `(tactic| (at_last OriginalWCA.run; exact OriginalWCA.framed_run (by assumption)))

macro_rules
  | `(tactic| fprim) => `(tactic| (at_last OriginalWCA.rain; exact OriginalWCA.framed_rain))

/-- `OriginalWCA` (`mealpy/system_based/WCA.py:12-157`) -/
def algo (p : Params K) : Algo c Unit (Vars d K) := Algo.custom true (fun _ => pure ()) (pure ⟨[], [], 0⟩) (initialization p) (evolve p)

theorem wok (hE : c.E.Lawful) (hP : c.P.Lawful) (hc : Accepted c 5) (p : Params K) (h2 : 2 ≤ p.nsr ∧ p.nsr ≤ c.popSize) :
    (algo p : Algo c Unit (Vars d K)).WOk (only [.value, .index]) (Inv.std c Unit (Made c p.nsr)) JT (Made c p.nsr) c.popSize c.popSize 0 0 c.popSize (c.popSize + (p.nsr - 1)) := by
  have hpop := hc.pop
  unfold algo
  refine Algo.custom_wok (J := (Made c p.nsr)) (J0 := JT) (by omega) (fun x hx => by dgo) (by dgo) (by omega) (fun y hy => bt_none hE hP h2) (fun y pop hy hl hp => bt_some hE h2 hl hp) (fun ep hep1 hep2 => ?_)
  unfold evolve
  refine WT.bind0 WT.get fun s hs => ?_
  obtain ⟨sz, k1, k2, k3⟩ := hs.ext
  have hs1 := sum_succ sz
  rw [k1] at hs1
  have h1 := WT.iterV (Er := only errs) (I := Inv.std c Unit (Made c p.nsr)) (f := run p s.gbest.sol) (fun i => sz.getD i 0 + 1) (fun i => sz.getD i 0 + 1) (fun _ => Ok c p.nsr sz) k3 p.nsr fun i v hi h => wt_run hE hP k1 hi h
  rw [hs1] at h1
  refine WT.bindS h1 (by omega) fun v hv => ?_
  refine WT.bindS (WT.iter (fun _ => Ok c p.nsr sz) (lo := 0) (hi := 1) (p.nsr - 1) hv fun i v hi h => wt_rain hE hP k1 (by omega) h) (by omega) fun v hv => ?_
  refine WT.weaken (WT.bind0 (WT.setPop ?_ ?_) fun _ _ => WT.modExt fun y _ => ⟨sz, k1, k2, hv.best, hv.bestOk, hv.sizes, hv.streamsOk⟩) (by omega) (by omega)
  · show (v.best ++ v.streams.flatten).length = c.popSize
    rw [List.length_append, List.length_flatten, hv.sizes, hv.best]; exact k2
  · intro a ha
    rcases List.mem_append.1 ha with ha | ha
    · exact Inv.std_ag (hv.bestOk a ha)
    · obtain ⟨l, hl, hal⟩ := List.mem_flatten.1 ha
      exact Inv.std_ag (hv.streamsOk l hl a hal)

theorem framed (hE : c.E.Lawful) (p : Params K) (ep : Nat) : Framed true (evolve p ep : M c Unit (Vars d K) Unit) := by
  unfold evolve; framed

end OriginalWCA

namespace ModifiedSLO

/-- `local_solution` and `local_target` (`mealpy/swarm_based/SLO.py:146-151`) -/
abbrev Own (d : Nat) (K : Type) : Type := Vec d K × Target K

/-- the opposite of the position is evaluated too, and the worse of the two becomes the solution
(`mealpy/swarm_based/SLO.py:149-165`) -/
def oppose (x : Vec d K) (t : Option (Target K)) : B c (Agent d K (Own d K)) := do
  let y ← liftD (correct (fun j => c.P.lb j + c.P.ub j - x j))
  let t ← (match t with
    | some t => pure t
    | none => getTarget x : B c (Target K))
  let u ← getTarget y
  pure (if compareTarget t u c.P.mm then ⟨y, u, (x, t)⟩ else ⟨x, t, (y, u)⟩)

/-- `generate_agent` for every agent in mode `single` (`mealpy/swarm_based/SLO.py:146-165`, `mealpy/optimizer.py:138-139` and `361-362`). Of
the starting solutions the model evaluates first all positions and then all opposites; the code alternates. -/
def initialization (y : Unit) (q : Option (List (Agent d K (Own d K)))) : B c (List (Agent d K (Own d K)) × Unit) := do
  let pop ← (match q with
    | some pop => iter c.popSize (fun i l => do
        let a ← liftD (nth pop i)
        let b ← oppose a.sol (some a.tgt)
        pure (l ++ [b])) []
    | none => iter c.popSize (fun _ l => do
        let x ← liftD genSolution
        let b ← oppose x none
        pure (l ++ [b])) [] : B c (List (Agent d K (Own d K))))
  pure (pop, y)

/-- the new position (`mealpy/swarm_based/SLO.py:184-195`) -/
def move {T : Type} (ep : Nat) (lead : K) (s : St c (Vec d K × T) Unit) (i : Nat) : D c (Vec d K × Vec d K × T) := do
  let a ← nth s.pop i
  let g := s.gbest.sol
  let q : K := 2 - 2 * ♯ep / ♯c.epoch
  let pa : K := if 1 < q then 0.3 else 0.7
  let pos ← (if 0.6 ≤ lead then do
      let n ← normal 0 1
      pure (fun j => Num.cos (2 * Num.pi * n) * Num.abs (g j - a.sol j) + g j)
    else do
      let u ← uniform 0 1
      if u < pa then do
        let v ← uniform 0 1
        let l ← levyVec 1.0 0.01 (-1)
        let w ← random
        let z ← uniformVec c.P.lb c.P.ub
        pure (fun j => (a.sol j - Num.sqrt ♯ep * Num.sign (w - 0.5)) * (l j * (v * Num.abs (2 * g j - a.sol j)) * q) * z j)
      else do
        let k ← index c.popSize
        let b ← nth s.pop k
        let v ← uniform 0 1
        pure (fun j => 2 * g j - b.ext.1 j - q * Num.abs (v * (2 * g j - b.ext.1 j) - a.sol j)) : D c (Vec d K))
  let pos ← correct pos
  pure (pos, a.ext)

/-- selection and the personal bests (`mealpy/swarm_based/SLO.py:201-206`) -/
def select (mm : MinMax) (old new : List (Agent d K (Own d K))) : List (Agent d K (Own d K)) :=
  List.zipWith (fun o n => if compareTarget n.tgt o.tgt mm then
    (if compareTarget n.tgt n.ext.2 mm then { n with ext := (n.sol, n.tgt) } else n) else o) old new

/-- `ModifiedSLO.evolve` (`mealpy/swarm_based/SLO.py:167-206`) -/
def evolve (ep : Nat) : M c (Own d K) Unit Unit := do
  let lead ← draw (uniform 0 1)
  let new ← buildEval c.popSize (move ep lead)
  reshape (fun pop => select c.P.mm pop new)

theorem bt_oppose (hP : c.P.Lawful) {x : Vec d K} (hx : Feas c x) : BT noErr 2 2 (oppose x none : B c (Agent d K (Own d K))) (CF c) := by
  unfold oppose
  refine BT.bind0 (BT.liftD (DT.correct hP)) fun y hy => BT.bindS (BT.getTarget hx) (by omega) fun t ht => BT.bindS (BT.getTarget hy) (by omega) fun u hu => BT.pure ?_
  split
  · exact ⟨hu, hy⟩
  · exact ⟨ht, hx⟩

theorem bt_oppose' (hP : c.P.Lawful) {a : Agent d K (Own d K)} (hx : CF c a) : BT noErr 1 1 (oppose a.sol (some a.tgt) : B c (Agent d K (Own d K))) (CF c) := by
  unfold oppose
  refine BT.bind0 (BT.liftD (DT.correct hP)) fun y hy => BT.bind0 (BT.pure (R := fun t => t = a.tgt) rfl) fun t ht => BT.bindS (BT.getTarget hy) (by omega) fun u hu => BT.pure ?_
  split
  · exact ⟨hu, hy⟩
  · exact ⟨by show t = _; rw [ht]; exact hx.1, hx.2⟩

/-- a list growing by agents in the box -/
def Part (c : Cfg d K) (i : Nat) (l : List (Agent d K (Own d K))) : Prop := l.length = i ∧ ∀ a ∈ l, CF c a

theorem Part.snoc {i : Nat} {l : List (Agent d K (Own d K))} {a : Agent d K (Own d K)} (h : Part c i l) (ha : CF c a) : Part c (i + 1) (l ++ [a]) := by
  refine ⟨by simp [h.1], fun b hb => ?_⟩
  rcases List.mem_append.1 hb with hb | hb
  · exact h.2 b hb
  · rw [List.mem_singleton.1 hb]; exact ha

theorem bt_none (hP : c.P.Lawful) {y : Unit} : BT noErr (c.popSize * 2) (c.popSize * 2) (initialization y none : B c _)
    (fun r => r.1.length = c.popSize ∧ (∀ a ∈ r.1, CF c a) ∧ JT r.2) := by
  unfold initialization
  refine BT.bindS (BT.iter (Part c) (lo := 2) (hi := 2) c.popSize ⟨rfl, by simp⟩ fun i l hi hl => ?_) le_rfl fun pop hpop => BT.weaken (BT.pure ⟨hpop.1, hpop.2, trivial⟩) (by omega) (by omega)
  exact BT.bind0 (BT.liftD (DT.genSolution hP)) fun x hx => BT.bindS (bt_oppose hP hx) le_rfl fun b hb => BT.weaken (BT.pure (hl.snoc hb)) (by omega) (by omega)

theorem bt_some (hP : c.P.Lawful) {y : Unit} {pop : List (Agent d K (Own d K))} (hl : pop.length = c.popSize) (hp : ∀ a ∈ pop, CF c a) :
    BT noErr (c.popSize * 2 - c.popSize) (c.popSize * 2 - c.popSize) (initialization y (some pop) : B c _) (fun r => r.1.length = c.popSize ∧ (∀ a ∈ r.1, CF c a) ∧ JT r.2) := by
  unfold initialization
  refine BT.bindS (BT.iter (Part c) (lo := 1) (hi := 1) c.popSize ⟨rfl, by simp⟩ fun i l hi hl' => ?_) (by omega) fun pop hpop => BT.weaken (BT.pure ⟨hpop.1, hpop.2, trivial⟩) (by omega) (by omega)
  exact BT.bind0 (BT.liftD (DT.nth_mem (by omega))) fun a ha => BT.bindS (bt_oppose' hP (hp a ha)) le_rfl fun b hb => BT.weaken (BT.pure (hl'.snoc hb)) (by omega) (by omega)

theorem dt_move (hE : c.E.Lawful) (hP : c.P.Lawful) {ep : Nat} {lead : K} {s : St c (Own d K) Unit} {i : Nat} (hl : s.pop.length = c.popSize) (hi : i < c.popSize) :
    DT noErr (move ep lead s i : D c _) (fun q => Feas c q.1) := by
  unfold move
  refine DT.bind (DT.nth_mem (by omega)) fun a _ => ?_
  dsimp only
  refine DT.bind (show DT noErr _ (fun _ => True) from DT.ite (fun _ => DT.bind DT.normal fun n _ => DT.pure trivial) fun _ => DT.bind DT.uniform' fun u _ => DT.ite (fun _ => ?_) fun _ => ?_) fun pos _ =>
    DT.bind (DT.correct hP) fun pos hp => DT.pure hp
  · exact DT.bind DT.uniform' fun v _ => DT.bind DT.levyVec fun l _ => DT.bind DT.random' fun w _ => DT.bind DT.uniformVec' fun z _ => DT.pure trivial
  · exact DT.bind (DT.index hE (by omega)) fun k hk => DT.bind (DT.nth_mem (by omega)) fun b _ => DT.bind DT.uniform' fun v _ => DT.pure trivial

theorem select_length {mm : MinMax} {old new : List (Agent d K (Own d K))} (h : new.length = old.length) : (select mm old new).length = old.length := by
  unfold select
  rw [List.length_zipWith]; omega

theorem select_ok {mm : MinMax} {old new : List (Agent d K (Own d K))} (ho : ∀ a ∈ old, CF c a) (hn : ∀ a ∈ new, CF c a) : ∀ a ∈ select mm old new, CF c a := by
  intro a ha
  obtain ⟨o, h1, n, h2, rfl⟩ := mem_zipWith' ha
  split
  · split
    · exact ⟨(hn n h2).1, (hn n h2).2⟩
    · exact hn n h2
  · exact ho o h1

theorem wt_select {new : List (Agent d K (Own d K))} (hl : new.length = c.popSize) (hn : ∀ a ∈ new, CF c a) :
    WT noErr (Inv.std c (Own d K) (JT : Unit → Prop)) 0 0 (reshape (fun pop => select c.P.mm pop new) : M c (Own d K) Unit Unit) (fun _ => True) := by
  refine WT.reshape fun pop hpop hag => ?_
  have hpl : pop.length = c.popSize := hpop
  exact ⟨by show (select _ _ _).length = c.popSize; rw [select_length (by omega)]; exact hpl, fun a ha => Inv.std_ag (select_ok (fun a ha => ⟨(hag a ha).1, (hag a ha).2⟩) hn a ha)⟩

/-- `ModifiedSLO` (`mealpy/swarm_based/SLO.py:100-206`) -/
def algo : Algo c (Own d K) Unit := Algo.custom false (fun x => pure (x, ⟨[], 0⟩)) (pure ()) initialization evolve

theorem wok (hE : c.E.Lawful) (hP : c.P.Lawful) (hc : Accepted c 5) (hm : c.swarmLike = false) :
    (algo : Algo c (Own d K) Unit).WOk noErr (Inv.std c (Own d K) JT) JT JT (c.popSize * 2) (c.popSize * 2) 0 0 c.popSize c.popSize := by
  have hpop := hc.pop
  unfold algo
  refine Algo.custom_wok (J := JT) (J0 := JT) (by omega) (fun x hx => by dgo) (by dgo) (by omega) (fun y hy => bt_none hP) (fun y pop hy hl hp => bt_some hP hl hp) (fun ep hep1 hep2 => ?_)
  unfold evolve
  refine WT.bind0 (WT.draw DT.uniform') fun lead _ => WT.bindS (WT.buildEval hE fun s i hs hi => DT.mono (dt_move hE hP hs.len_std hi) fun q hq => Inv.std_mk hq) le_rfl fun new hnew => ?_
  exact WT.weaken (wt_select hnew.1 fun a ha => ⟨(hnew.2 a ha).1, (hnew.2 a ha).2⟩) (by omega) (by omega)

theorem framed (hE : c.E.Lawful) (ep : Nat) : Framed true (evolve ep : M c (Own d K) Unit Unit) := by
  unfold evolve; framed

end ModifiedSLO

namespace ImprovedSLO

open ModifiedSLO (Own initialization select)

/-- the hyper-parameters (`mealpy/swarm_based/SLO.py:263-264`) -/
structure Params (K : Type) where
  c1 : K
  c2 : K

/-- the new position (`mealpy/swarm_based/SLO.py:283-304`) -/
def move {T : Type} (p : Params K) (ep : Nat) (lead : K) (i : Nat) : M c (Vec d K × T) Unit (Vec d K × Vec d K × T) := do
  let s ← get
  let a ← popAt i
  let g := s.gbest.sol
  let q : K := 2 - 2 * ♯ep / ♯c.epoch
  let pos ← (if lead < 0.5 then
      if q < 1 then draw (do
        let r1 ← random
        let r2 ← random
        let r3 ← random
        let r4 ← random
        pure (fun j => p.c1 * r3 * (a.sol j - Num.abs (2 * r1 * g j - a.sol j)) + p.c2 * r4 * (a.sol j - Num.abs (2 * r2 * a.ext.1 j - a.sol j))))
      else do
        let n ← draw (normalVec 0 1)
        let x ← draw (correct (fun j => g j + q * n j * (g j - a.sol j)))
        let t ← liftB (getTarget x)
        let r ← draw random
        let y ← draw (correct (fun j => c.P.lb j + c.P.ub j - g j + r * (g j - x j)))
        let u ← liftB (getTarget y)
        pure (if compareTarget u t c.P.mm then y else x)
    else draw (do
      let u ← uniform (-1) 1
      pure (fun j => g j + Num.cos (2 * Num.pi * u) * Num.abs (g j - a.sol j))) : M c (Vec d K × T) Unit (Vec d K))
  let pos ← draw (correct pos)
  pure (pos, a.ext)

/-- `ImprovedSLO.evolve` (`mealpy/swarm_based/SLO.py:268-315`) -/
def evolve (p : Params K) (ep : Nat) : M c (Own d K) Unit Unit := do
  let t0 ← draw random
  let v1 : K := Num.sin (2 * Num.pi * t0)
  let v2 : K := Num.sin (2 * Num.pi * (1 - t0))
  let new ← buildEvalM c.popSize (move p ep (Num.abs (v1 * (1 + v2) / v2)))
  reshape (fun pop => select c.P.mm pop new)

theorem wt_move (hP : c.P.Lawful) {p : Params K} {ep : Nat} {lead : K} {i : Nat} (hi : i < c.popSize) :
    WT noErr (Inv.std c (Own d K) (JT : Unit → Prop)) 0 2 (move p ep lead i : M c (Own d K) Unit _) (Inv.std c (Own d K) (JT : Unit → Prop)).Mk := by
  unfold move
  refine WT.bind0 WT.get fun s hs => WT.bind0 (WT.popAt fun n hn => by have : n = c.popSize := hn
                                                                       omega) fun a _ => ?_
  dsimp only
  refine WT.bindS (l1 := 0) (h1 := 2) (R := fun _ => True) (WT.ite (fun _ => WT.ite (fun _ => ?_) fun _ => ?_) fun _ => ?_) (by omega) fun pos _ =>
    WT.weaken (WT.bind0 (WT.draw (DT.correct hP)) fun pos hp => WT.pure (Inv.std_mk hp)) (by omega) (by omega)
  · exact WT.weaken (WT.draw (DT.bind DT.random' fun _ _ => DT.bind DT.random' fun _ _ => DT.bind DT.random' fun _ _ => DT.bind DT.random' fun _ _ => DT.pure trivial)) (by omega) (by omega)
  · refine WT.bind0 (WT.draw DT.normalVec) fun n _ => WT.bind0 (WT.draw (DT.correct hP)) fun x hx => WT.getTarget_std hx (by omega) <| WT.bind0 (WT.draw DT.random') fun r _ => ?_
    exact WT.bind0 (WT.draw (DT.correct hP)) fun y hy => WT.getTarget_std hy (by omega) <| WT.weaken (WT.pure trivial) (by omega) (by omega)
  · exact WT.weaken (WT.draw (DT.bind DT.uniform' fun _ _ => DT.pure trivial)) (by omega) (by omega)

theorem framed_move {T : Type} {p : Params K} {ep : Nat} {lead : K} {i : Nat} : Framed true (move p ep lead i : M c (Vec d K × T) Unit _) := by
  unfold move; framed

macro_rules
  | `(tactic| fprim) => `(tactic| (at_last ImprovedSLO.move; exact ImprovedSLO.framed_move))

/-- `ImprovedSLO` (`mealpy/swarm_based/SLO.py:209-315`) -/
def algo (p : Params K) : Algo c (Own d K) Unit := Algo.custom false (fun x => pure (x, ⟨[], 0⟩)) (pure ()) initialization (evolve p)

theorem wok (hE : c.E.Lawful) (hP : c.P.Lawful) (hc : Accepted c 5) (p : Params K) (hm : c.swarmLike = false) :
    (algo p : Algo c (Own d K) Unit).WOk noErr (Inv.std c (Own d K) JT) JT JT (c.popSize * 2) (c.popSize * 2) 0 0 c.popSize (c.popSize * 3) := by
  have hpop := hc.pop
  unfold algo
  refine Algo.custom_wok (J := JT) (J0 := JT) (by omega) (fun x hx => by dgo) (by dgo) (by omega) (fun y hy => ModifiedSLO.bt_none hP) (fun y pop hy hl hp => ModifiedSLO.bt_some hP hl hp) (fun ep hep1 hep2 => ?_)
  unfold evolve
  refine WT.bind0 (WT.draw DT.random') fun t0 _ => ?_
  refine WT.bindS (WT.buildEvalM (lo := 0) (hi := 2) hE fun i hi => wt_move hP hi) (by omega) fun new hnew => ?_
  exact WT.weaken (ModifiedSLO.wt_select hnew.1 fun a ha => ⟨(hnew.2 a ha).1, (hnew.2 a ha).2⟩) (by omega) (by omega)

theorem framed (hE : c.E.Lawful) (p : Params K) (ep : Nat) : Framed true (evolve p ep : M c (Own d K) Unit Unit) := by
  unfold evolve; framed

end ImprovedSLO

end Mealpy
