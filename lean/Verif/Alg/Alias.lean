import Verif.Alg.Kit8
import Verif.Props.Select

/-! # Shared solution arrays

`Agent.copy()` copies the attributes, not the arrays (`mealpy/utils/agent.py:33-36`), so the population, `g_best` and the history may hold
one numpy array several times. For most optimizers that does not matter, since they never write into an array. The ones that do are modelled
with an array identity on each agent: two agents with the same identity hold the same array. -/

set_option linter.unusedSectionVars false
set_option linter.unusedVariables false

namespace Mealpy
open Spec

variable {d : Nat} {K : Type} [Num K] {c : Cfg d K} {X Y : Type}
variable {Er : Err → Prop} {F : Agent d K X → Prop} {J : Y → Prop}

/-- the agent after `v` has been written into the array `r` -/
def rewrite (r : Nat) (v : Vec d K) (a : Agent d K Nat) : Agent d K Nat := if a.ext = r then { a with sol := v } else a

/-- write `v` into the array `r`: every agent that holds it changes, in the population, `g_best` and the history -/
def poke (r : Nat) (v : Vec d K) : M c Nat Y Unit := modify (fun s => { s with
  pop := s.pop.map (rewrite r v)
  gbest := rewrite r v s.gbest
  hist := { s.hist with
    globalBest := s.hist.globalBest.map (rewrite r v)
    currentBest := s.hist.currentBest.map (rewrite r v)
    globalWorst := s.hist.globalWorst.map (rewrite r v)
    currentWorst := s.hist.currentWorst.map (rewrite r v)
    population := s.hist.population.map (fun l => l.map (rewrite r v)) } })

/-- a new array -/
def fresh : M c X Nat Nat := do
  let s ← get
  modExt (fun n => n + 1)
  pure s.ext

/-- an array in hand: the array of an agent (`ref`) or a private one, and its contents -/
structure Arr (d : Nat) (K : Type) where
  ref : Option Nat
  val : Vec d K

/-- the array `b` after `a` has been written -/
def Arr.seen (a b : Arr d K) : Arr d K := if b.ref.isSome ∧ a.ref = b.ref then { b with val := a.val } else b

/-- `a[...] = v` -/
def Arr.write (a : Arr d K) (v : Vec d K) : M c Nat Y (Arr d K) := do
  match a.ref with
  | some r => poke r v
  | none => pure ()
  pure { a with val := v }

/-- the initial agents have arrays of their own -/
def tagInit (y : Nat) (p : Option (List (Agent d K Nat))) : B c (List (Agent d K Nat) × Nat) := do
  let r ← defaultInit (fun _ => pure 0) y p
  pure (r.1.mapIdx (fun i a => { a with ext := i }), c.popSize)

/-- an algorithm on agents with array identities -/
def Algo.tagged (sf : Bool) (ev : Nat → M c Nat Nat Unit) : Algo c Nat Nat where
  sortFlag := sf
  mkExt := fun _ => pure 0
  initVars := pure 0
  initialization := tagInit
  beforeMain := pure ()
  evolve := ev

theorem tagInit_ok (hE : c.E.Lawful) (hP : c.P.Lawful) (y : Nat) (p : Option (List (Agent d K Nat))) (b : Base c)
    (hp : ∀ pop, p = some pop → pop.length = c.popSize ∧ ∀ a ∈ pop, Evald c b.log a ∧ FA c a) :
    Wp noErr (tagInit y p : B c _) b (fun r b' => InitPost (FA c) JT c.popSize p b r b') := by
  unfold tagInit
  refine Wp.bind (Wp.mono (defaultInit_spec (F := FA c) (J := JT) hE hP (fun x hx => DT.pure hx) y p b trivial hp) ?_)
  intro r b' h
  have hm : ∀ a ∈ r.1.mapIdx (fun i a => ({ a with ext := i } : Agent d K Nat)), ∃ a0 ∈ r.1, a.sol = a0.sol ∧ a.tgt = a0.tgt := by
    intro a ha
    obtain ⟨i, hi, rfl⟩ := List.mem_mapIdx.1 ha
    exact ⟨r.1[i], List.getElem_mem hi, rfl, rfl⟩
  have hm' : ∀ a0 ∈ r.1, ∃ a ∈ r.1.mapIdx (fun i a => ({ a with ext := i } : Agent d K Nat)), a.sol = a0.sol ∧ a.tgt = a0.tgt := by
    intro a0 ha
    obtain ⟨i, hi, rfl⟩ := List.mem_iff_getElem.1 ha
    exact ⟨_, List.mem_mapIdx.2 ⟨i, hi, rfl⟩, rfl, rfl⟩
  have hn : ∀ a0 ∈ r.1, ∀ k : K, NoWorse c.P.mm a0.fit k →
      ∃ a ∈ r.1.mapIdx (fun i a => ({ a with ext := i } : Agent d K Nat)), NoWorse c.P.mm a.fit k := by
    intro a0 ha k hk
    obtain ⟨a, h1, -, h2⟩ := hm' a0 ha
    refine ⟨a, h1, ?_⟩
    show NoWorse c.P.mm a.tgt.fitness k
    rw [h2]; exact hk
  obtain ⟨new, e1, e2, e3, e4⟩ := h.evals
  refine Wp.pure ⟨?_, fun a ha => ?_, fun a ha => ?_, trivial, ⟨new, e1, fun x hx => ?_, e3, e4⟩, fun pop hpop a ha => ?_⟩
  · show (r.1.mapIdx _).length = _
    rw [List.length_mapIdx]; exact h.len
  · obtain ⟨a0, h0, h1, h2⟩ := hm a ha
    have := h.ev a0 h0
    exact ⟨by rw [h1, h2]; exact this.1, by rw [h1]; exact this.2⟩
  · obtain ⟨a0, h0, h1, h2⟩ := hm a ha
    show Feas c a.sol
    rw [h1]; exact h.feas a0 h0
  · obtain ⟨f, a, ha, g⟩ := e2 x hx
    obtain ⟨a', ha', g'⟩ := hn a ha _ g
    exact ⟨f, a', ha', g'⟩
  · obtain ⟨a', ha', g⟩ := h.keep pop hpop a ha
    exact hn a' ha' _ g

theorem Algo.tagged_ok (hE : c.E.Lawful) (hP : c.P.Lawful) {sf : Bool} {ev : Nat → M c Nat Nat Unit} {lo hi : Nat}
    (h : ∀ ep, 1 ≤ ep → ep ≤ c.epoch → PT (FA c) JT lo hi (ev ep) (fun _ => True)) :
    (Algo.tagged sf ev).Ok (FA c) JT JT JT c.popSize lo hi where
  mkExt := fun x hx => DT.pure hx
  initVars := DT.pure trivial
  init := fun y q b _ hp => tagInit_ok hE hP y q b hp
  before := (Algo.full_ok (sf := false) (J := JT) (mkExt := fun _ => (Pure.pure 0 : D c Nat)) (init := (Pure.pure 0 : D c Nat))
    (ev := fun _ => Pure.pure ()) hE hP (fun x hx => DT.pure trivial) (DT.pure trivial) (lo := 0) (hi := 0)
    (fun _ _ _ => IT.pt (IT.pure trivial))).before
  evolve := (Algo.full_ok (sf := false) (J := JT) (mkExt := fun _ => (Pure.pure 0 : D c Nat)) (init := (Pure.pure 0 : D c Nat))
    (ev := ev) hE hP (fun x hx => DT.pure trivial) (DT.pure trivial) h).evolve

theorem RJ.fresh {G : List (Agent d K X)} : RJ F JT 0 0 G (fresh : M c X Nat Nat) (fun _ => G) (fun _ => True) := by
  unfold Mealpy.fresh
  exact RJ.bind0 RJ.get fun s hs => RJ.bind0 (RJ.modExt fun _ _ => trivial) fun _ _ => RJ.pure rfl trivial

theorem Framed.fresh {q : Bool} : Framed q (fresh : M c X Nat Nat) := by
  unfold Mealpy.fresh; framed

macro_rules
  | `(tactic| fprim) => `(tactic| (at_last fresh; exact Framed.fresh))

/-- a tournament among enough agents succeeds -/
theorem DT.kwayIdx (hE : c.E.Lawful) {pop : List (Agent d K X)} {k : KWay} {output : Nat} {reverse : Bool} (ho : 0 < output)
    (h0 : 0 ≤ k.size pop.length) (h1 : k.size pop.length ≤ pop.length) :
    DT Er (Mealpy.kwayIdx pop k output reverse : D c (List Nat))
      (fun r => r.length = min output (k.size pop.length).toNat ∧ ∀ i ∈ r, i < pop.length) := by
  intro g
  obtain ⟨r, s', h⟩ := (C26_when_it_raises c.E pop k output reverse c.P.mm g.1).2 ⟨h0, h1⟩
  have hr : r.length = min output (k.size pop.length).toNat ∧ ∀ i ∈ r, i < pop.length := by
    cases reverse with
    | false =>
      obtain ⟨ids, _, hl, hi, h2, _, h3, _⟩ := C26_tournament c.E hE pop k output c.P.mm g.1 s' r h
      exact ⟨by omega, fun i hir => hi i (h3 i hir)⟩
    | true =>
      obtain ⟨ids, _, hl, hi, h2, _, h3, _⟩ := C26_tournament_reverse c.E hE pop k output ho c.P.mm g.1 s' r h
      exact ⟨by omega, fun i hir => hi i (h3 i hir)⟩
  refine Wp.of_ok (a := r) (s' := (s', g.2)) ?_ hr
  unfold Mealpy.kwayIdx
  rw [h]

end Mealpy
