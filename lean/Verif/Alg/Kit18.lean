import Verif.Alg.Kit17
import Verif.Alg.Alias

/-! # Identities of agents

`self.pop.copy()` copies the list, not the agents. An optimizer that keeps such a list and later assigns to the attributes of the agents is
modelled with an identity on each agent. -/

set_option linter.unusedSectionVars false
set_option linter.unusedVariables false

namespace Mealpy
open Spec

variable {d : Nat} {K : Type} [Num K] {c : Cfg d K} {X Y : Type}
variable {Er : Err → Prop} {F : Agent d K X → Prop} {J : Y → Prop}

/-- the initial agents have identities of their own -/
def numberInit (y : Y) (p : Option (List (Agent d K Nat))) : B c (List (Agent d K Nat) × Y) := do
  let r ← defaultInit (fun _ => pure 0) y p
  pure (r.1.mapIdx (fun i a => { a with ext := i }), r.2)

/-- As `Algo.pre`, on agents with identities. -/
def Algo.preNumbered (sf : Bool) (init : D c Y) (before : St c Nat Y → D c Y) (ev : Nat → M c Nat Y Unit) : Algo c Nat Y where
  sortFlag := sf
  mkExt := fun _ => pure 0
  initVars := init
  initialization := numberInit
  beforeMain := do
    let s ← get
    let y ← draw (before s)
    modExt (fun _ => y)
  evolve := ev

theorem numberInit_ok (hE : c.E.Lawful) (hP : c.P.Lawful) (y : Y) (p : Option (List (Agent d K Nat))) (b : Base c)
    (hp : ∀ pop, p = some pop → pop.length = c.popSize ∧ ∀ a ∈ pop, Evald c b.log a ∧ FA c a) :
    Wp noErr (numberInit y p : B c _) b (fun r b' => InitPost (FA c) JT c.popSize p b r b') := by
  unfold numberInit
  refine Wp.bind (Wp.mono (defaultInit_spec (F := FA c) (J := JT) hE hP (fun x hx => DT.pure hx) y p b trivial hp) ?_)
  intro r b' h
  have hm : ∀ a ∈ r.1.mapIdx (fun i a => ({ a with ext := i } : Agent d K Nat)), ∃ a0 ∈ r.1, a.sol = a0.sol ∧ a.tgt = a0.tgt := by
    intro a ha
    obtain ⟨i, hi, rfl⟩ := List.mem_mapIdx.1 ha
    exact ⟨r.1[i], List.getElem_mem hi, rfl, rfl⟩
  have hm' : ∀ a0 ∈ r.1, ∃ a ∈ r.1.mapIdx (fun i a => ({ a with ext := i } : Agent d K Nat)), a.sol = a0.sol ∧ a.tgt = a0.tgt := by
    intro a0 ha
    obtain ⟨i, hi, rfl⟩ := List.mem_iff_getElem.1 ha
    exact ⟨_, List.mem_mapIdx.2 ⟨i, hi, rfl⟩, rfl, rfl⟩
  have hn : ∀ a0 ∈ r.1, ∀ k : K, NoWorse c.P.mm a0.fit k →
      ∃ a ∈ r.1.mapIdx (fun i a => ({ a with ext := i } : Agent d K Nat)), NoWorse c.P.mm a.fit k := by
    intro a0 ha k hk
    obtain ⟨a, h1, -, h2⟩ := hm' a0 ha
    refine ⟨a, h1, ?_⟩
    show NoWorse c.P.mm a.tgt.fitness k
    rw [h2]; exact hk
  obtain ⟨new, e1, e2, e3, e4⟩ := h.evals
  refine Wp.pure ⟨?_, fun a ha => ?_, fun a ha => ?_, trivial, ⟨new, e1, fun x hx => ?_, e3, e4⟩, fun pop hpop a ha => ?_⟩
  · show (r.1.mapIdx _).length = _
    rw [List.length_mapIdx]; exact h.len
  · obtain ⟨a0, h0, h1, h2⟩ := hm a ha
    have := h.ev a0 h0
    exact ⟨by rw [h1, h2]; exact this.1, by rw [h1]; exact this.2⟩
  · obtain ⟨a0, h0, h1, h2⟩ := hm a ha
    show Feas c a.sol
    rw [h1]; exact h.feas a0 h0
  · obtain ⟨f, a, ha, g⟩ := e2 x hx
    obtain ⟨a', ha', g'⟩ := hn a ha _ g
    exact ⟨f, a', ha', g'⟩
  · obtain ⟨a', ha', g⟩ := h.keep pop hpop a ha
    exact hn a' ha' _ g

theorem Algo.preNumbered_ok (hE : c.E.Lawful) (hP : c.P.Lawful) {sf : Bool} {init : D c Y} {before : St c Nat Y → D c Y}
    {ev : Nat → M c Nat Y Unit} {lo hi : Nat} (hv : DT noErr init JT)
    (hb : ∀ s : St c Nat Y, s.pop.length = c.popSize → DT noErr (before s) J)
    (h : ∀ ep, 1 ≤ ep → ep ≤ c.epoch → PT (FA c) J lo hi (ev ep) (fun _ => True)) :
    (Algo.preNumbered sf init before ev).Ok (FA c) JT JT J c.popSize lo hi := by
  have h0 := Algo.pre_ok (J := J) (sf := sf) (mkExt := fun _ => (Pure.pure 0 : D c Nat)) hE hP (fun x hx => DT.pure trivial) hv hb h
  exact ⟨fun x hx => DT.pure hx, hv, fun y q b _ hp => numberInit_ok hE hP y q b hp, h0.before, h0.evolve⟩

/-- everything feasible; the population sizes in `S` -/
def Inv.sized (c : Cfg d K) (X : Type) {Y : Type} (S : Nat → Prop) (J : Y → Prop) : Inv c X Y := ⟨Feas c, S, FA c, J⟩

theorem Inv.sized_box {S : Nat → Prop} {mkExt : Vec d K → D c X} (h : ∀ x, Feas c x → DT Er (mkExt x) (fun _ => True)) :
    (Inv.sized c X S J).Box Er mkExt := fun x hx => ⟨hx, DT.mono (h x hx) fun _ _ => hx⟩

/-- As `Algo.custom_wok`, for other sizes of the population. -/
theorem Algo.custom_wokS {S : Nat → Prop} (hpos : ∀ n, S n → 0 < n) {sf : Bool} {mkExt : Vec d K → D c X} {init : D c Y}
    {ini : Y → Option (List (Agent d K X)) → B c (List (Agent d K X) × Y)} {ev : Nat → M c X Y Unit} {i1 i2 lo hi : Nat} {J0 : Y → Prop}
    (hm : ∀ x, Feas c x → DT Er (mkExt x) (fun _ => True)) (hv : DT Er init J0) (h2 : c.popSize ≤ i2)
    (hnone : ∀ y, J0 y → BT Er i1 i2 (ini y none) (fun r => S r.1.length ∧ (∀ a ∈ r.1, CF c a) ∧ J r.2))
    (hsome : ∀ y pop, J0 y → pop.length = c.popSize → (∀ a ∈ pop, CF c a) →
      BT Er (i1 - c.popSize) (i2 - c.popSize) (ini y (some pop)) (fun r => S r.1.length ∧ (∀ a ∈ r.1, CF c a) ∧ J r.2))
    (h : ∀ ep, 1 ≤ ep → ep ≤ c.epoch → WT Er (Inv.sized c X S J) lo hi (ev ep) (fun _ => True)) :
    (Algo.custom sf mkExt init ini ev).WOk Er (Inv.sized c X S J) J0 J i1 i2 0 0 lo hi where
  box := fun x hx => hx
  nonempty := hpos
  mkExt := fun x hx => DT.mono (hm x hx) fun _ _ => hx
  initVars := hv
  init := by
    intro y p b hy hp
    cases p with
    | none =>
      refine Wp.mono (hnone y hy b) ?_
      rintro r b' ⟨⟨new, g1, g2, g3, g4⟩, g5, g6, g7⟩
      exact ⟨g5, g6, g7, new, g1, g4, by simp; omega, by simp; omega⟩
    | some pop =>
      obtain ⟨k1, k2⟩ := hp pop rfl
      refine Wp.mono (hsome y pop hy k1 k2 b) ?_
      rintro r b' ⟨⟨new, g1, g2, g3, g4⟩, g5, g6, g7⟩
      exact ⟨g5, g6, g7, new, g1, g4, by simp; omega, by simp; omega⟩
  before := fun s hs => Wp.pure (WStep.base hs (.refl rfl))
  evolve := h

/-- a loop whose first round costs more -/
theorem WT.iterHead {I : Inv c X Y} {f : Nat → α → M c X Y α} {l1 h1 lo hi : Nat} (P : Nat → α → Prop) {a : α} (h0 : P 0 a)
    (hf0 : WT Er I l1 h1 (f 0 a) (P 1)) : ∀ (n : Nat), 
    (∀ (i : Nat) (a : α), 0 < i → i < n + 1 → P i a → WT Er I lo hi (f i a) (P (i + 1))) →
    WT Er I (l1 + n * lo) (h1 + n * hi) (Mealpy.iter (n + 1) f a) (P (n + 1))
  | 0, _ => by
    have := WT.bind (l1 := 0) (h1 := 0) (WT.pure (Er := Er) (I := I) (a := a) (R := fun b => b = a) rfl) (fun b hb => (by rw [hb]; exact hf0 : WT Er I l1 h1 (f 0 b) (P 1)))
    rw [Nat.zero_mul, Nat.zero_mul]
    exact WT.weaken this (by omega) (by omega)
  | n + 1, hf => by
    have := WT.bind (WT.iterHead P h0 hf0 n (fun i a h hi => hf i a h (by omega))) (fun a ha => hf (n + 1) a (by omega) (by omega) ha)
    rw [Nat.succ_mul, Nat.succ_mul]
    exact WT.weaken this (by omega) (by omega)

end Mealpy
