import Verif.Alg.Kit2

/-! # Idioms of the `evolve` methods, part 3 -/

set_option linter.unusedSectionVars false
set_option linter.unusedVariables false

namespace Mealpy
open Spec

variable {d : Nat} {K : Type} [Num K] {c : Cfg d K} {X Y : Type} {α β : Type} {Er : Err → Prop}
variable {F : Agent d K X → Prop} {J : Y → Prop}

/-! ## The population is rearranged -/

/-- `self.pop = f(self.pop)` -/
def reshape (f : List (Agent d K X) → List (Agent d K X)) : M c X Y Unit :=
  modify (fun s => { s with pop := f s.pop })

/-- the held agents go into the population, which loses nothing -/
theorem HJ.reshape {G : List (Agent d K X)} {f : List (Agent d K X) → List (Agent d K X)}
    (h : ∀ pop : List (Agent d K X), pop.length = c.popSize → (f pop).length = c.popSize ∧ (∀ a ∈ f pop, a ∈ pop ∨ a ∈ G) ∧
      ∀ a, a ∈ pop ∨ a ∈ G → ∃ a' ∈ f pop, NoWorse c.P.mm a'.fit a.fit) :
    HJ F J 0 0 G (Mealpy.reshape f : M c X Y Unit) (fun _ => []) (fun _ => True) := by
  intro s0 s l k hs0 hs
  obtain ⟨h1, h2, h3⟩ := h s.pop hs.good.len
  exact Wp.modify ⟨(hs.settle (s'' := { s with pop := f s.pop }) h1 h2 h3 rfl rfl rfl rfl rfl).held, trivial⟩

theorem IT.reshape {f : List (Agent d K X) → List (Agent d K X)}
    (h : ∀ pop : List (Agent d K X), pop.length = c.popSize → (f pop).length = c.popSize ∧ (∀ a ∈ f pop, a ∈ pop) ∧
      ∀ a ∈ pop, ∃ a' ∈ f pop, NoWorse c.P.mm a'.fit a.fit) :
    IT F J 0 0 (Mealpy.reshape f : M c X Y Unit) (fun _ => True) := by
  refine HJ.it (HJ.reshape fun pop hp => ?_)
  obtain ⟨h1, h2, h3⟩ := h pop hp
  refine ⟨h1, fun a ha => .inl (h2 a ha), ?_⟩
  rintro a (ha | ha)
  · exact h3 a ha
  · cases ha

theorem WT.reshape {I : Inv c X Y} {f : List (Agent d K X) → List (Agent d K X)}
    (h : ∀ pop : List (Agent d K X), I.size pop.length → (∀ a ∈ pop, I.Ag a) → I.size (f pop).length ∧ ∀ a ∈ f pop, I.Ag a) :
    WT Er I 0 0 (Mealpy.reshape f : M c X Y Unit) (fun _ => True) :=
  WT.modifyPop (f := fun s => f s.pop) fun s hs => h s.pop hs.len hs.pop

theorem Framed.reshape {q : Bool} {f : List (Agent d K X) → List (Agent d K X)} : Framed q (Mealpy.reshape f : M c X Y Unit) := by
  unfold Mealpy.reshape; framed

macro_rules
  | `(tactic| fprim) => `(tactic| (at_last reshape; exact Framed.reshape))

/-- `self.pop, _ = self.get_sorted_population(self.pop, minmax)` -/
def sortPop : M c X Y Unit := reshape (fun l => (getSorted c.E.argsort l c.P.mm).1)

theorem IT.sortPop (hE : c.E.Lawful) : IT F J 0 0 (Mealpy.sortPop : M c X Y Unit) (fun _ => True) :=
  IT.reshape fun pop hp => ⟨by rw [getSorted_length hE.argsortLaw]; exact hp, fun a ha => (getSorted_mem hE.argsortLaw).1 ha,
    fun a ha => ⟨a, (getSorted_mem hE.argsortLaw).2 ha, NoWorse.rfl⟩⟩

theorem WT.sortPop {I : Inv c X Y} (hE : c.E.Lawful) : WT Er I 0 0 (Mealpy.sortPop : M c X Y Unit) (fun _ => True) :=
  WT.reshape fun pop hp ha => ⟨by rw [getSorted_length hE.argsortLaw]; exact hp, fun a h => ha a ((getSorted_mem hE.argsortLaw).1 h)⟩

theorem Framed.sortPop {q : Bool} : Framed q (Mealpy.sortPop : M c X Y Unit) := Framed.reshape

macro_rules
  | `(tactic| fprim) => `(tactic| (at_last sortPop; exact Framed.sortPop))
macro_rules
  | `(tactic| istep) => `(tactic| first
    | (at_bind sortPop; refine IT.bind0 (IT.sortPop (by assumption)) (fun _ _ => ?_))
    | (at_head sortPop; exact IT.weaken (IT.sortPop (by assumption)) (by omega) (by omega)))
macro_rules
  | `(tactic| wstep) => `(tactic| first
    | (at_bind sortPop; refine WT.bind0 (WT.sortPop (by assumption)) (fun _ _ => ?_))
    | (at_head sortPop; exact WT.weaken (WT.sortPop (by assumption)) (by omega) (by omega)))

/-! ## Draws -/

/-- `generator.normal(loc, scale)` with a scale that may be negative: numpy raises `ValueError` -/
def normalS (loc scale : K) : D c K := if scale < 0 then dthrow .value else normal loc scale

/-- `generator.normal(loc, scale)` with arrays: numpy raises `ValueError` if any scale is negative -/
def normalArr (loc scale : Vec d K) : D c (Vec d K) :=
  if ∃ j, scale j < 0 then dthrow .value else vecM (fun j => normal (loc j) (scale j))

theorem DT.normalS {loc scale : K} (h : 0 ≤ scale) : DT Er (Mealpy.normalS loc scale : D c K) (fun _ => True) :=
  DT.ite (fun h' => absurd h' (not_lt.2 h)) fun _ => DT.normal

theorem DT.normalArr {loc scale : Vec d K} (h : ∀ j, 0 ≤ scale j) : DT Er (Mealpy.normalArr loc scale : D c (Vec d K)) (fun _ => True) :=
  DT.ite (fun h' => by obtain ⟨j, hj⟩ := h'; exact absurd hj (not_lt.2 (h j))) fun _ => DT.vecM_true fun _ => DT.normal

/-- `generator.choice(n, p=ps)` with `n = len(ps)` -/
def choiceP (ps : List K) : D c Nat := fun g =>
  if ps = [] then .error .value else .ok ((c.E.choiceP ps g.1).1, ((c.E.choiceP ps g.1).2, g.2))

theorem DT.choiceP (hE : c.E.Lawful) {ps : List K} (h : 0 < ps.length) :
    DT Er (Mealpy.choiceP ps : D c Nat) (fun i => i < ps.length) := by
  have hne : ps ≠ [] := List.length_pos_iff.1 h
  intro g
  unfold Mealpy.choiceP Wp
  dsimp only
  rw [if_neg hne]
  exact hE.choiceP_lt ps g.1 hne

/-- the index returned by `get_sorted_population(..., return_index=True)`, first entry -/
def bestIdx (pop : List (Agent d K X)) : D c Nat := nth (getSorted c.E.argsort pop c.P.mm).2 0

theorem sorted_idx_length (hE : c.E.Lawful) (pop : List (Agent d K X)) :
    (getSorted c.E.argsort pop c.P.mm).2.length = pop.length := by
  have := (sortedIdx_perm hE.argsortLaw pop c.P.mm).length_eq
  rw [List.length_range] at this
  exact this

theorem sorted_idx_lt (hE : c.E.Lawful) (pop : List (Agent d K X)) : ∀ i ∈ (getSorted c.E.argsort pop c.P.mm).2, i < pop.length :=
  fun i hi => List.mem_range.1 ((sortedIdx_perm hE.argsortLaw pop c.P.mm).mem_iff.1 hi)

theorem DT.bestIdx (hE : c.E.Lawful) {pop : List (Agent d K X)} (h : 0 < pop.length) :
    DT Er (Mealpy.bestIdx pop : D c Nat) (fun i => i < pop.length) :=
  DT.mono (DT.nth_mem (by rw [sorted_idx_length hE]; exact h)) fun i hi => sorted_idx_lt hE pop i hi

macro_rules
  | `(tactic| dprim) => `(tactic| first
    | (at_head normalS; exact DT.normalS (by dside))
    | (at_head normalArr; exact DT.normalArr (by dside))
    | (at_head choiceP; exact DT.choiceP (by assumption) (by dside))
    | (at_head bestIdx; exact DT.bestIdx (by assumption) (by dside)))

/-- `correct_solution` with an `amend_solution` of the algorithm's own -/
macro_rules
  | `(tactic| dprim) => `(tactic| (at_head correctWith; refine DT.correctWith (by assumption) ?_; focus (dgo; done)))

/-! ## Positions built by a block of draws; agents evaluated on the way -/

theorem IT.drawPos {l h : Nat} {m : D c (Vec d K)} {f : Vec d K → M c X Y β} {Q : β → Prop}
    (hm : DT noErr m (fun x => Spec.InBox c.P.lb c.P.ub x)) (h' : ∀ a, Spec.InBox c.P.lb c.P.ub a → IT F J l h (f a) Q) :
    IT F J l h (Mealpy.draw m >>= f) Q := IT.bind0 (IT.draw hm) h'

theorem WT.drawPos {I : Inv c X Y} {l h : Nat} {m : D c (Vec d K)} {f : Vec d K → M c X Y β} {Q : β → Prop}
    (hm : DT Er m (fun x => Spec.InBox c.P.lb c.P.ub x)) (h' : ∀ a, Spec.InBox c.P.lb c.P.ub a → WT Er I l h (f a) Q) :
    WT Er I l h (Mealpy.draw m >>= f) Q := WT.bind0 (WT.draw hm) h'

theorem WT.agentOf_std {l h : Nat} {x : Vec d K} {mkExt : Vec d K → D c X} {f : Agent d K X → M c X Y β} {Q : β → Prop}
    (hx : Spec.InBox c.P.lb c.P.ub x) (hmk : DT Er (mkExt x) (fun _ => True)) (hh : 1 ≤ h)
    (h' : ∀ a, CF c a → WT Er (Inv.std c X J) (l - 1) (h - 1) (f a) Q) :
    WT Er (Inv.std c X J) l h (liftB (Mealpy.agentOf mkExt x) >>= f) Q :=
  WT.bindS (WT.agentOf (I := Inv.std c X J) hx (DT.mono hmk fun _ _ => hx)) hh fun a ha => h' a ha.1

theorem WT.generateAgent_std (hP : c.P.Lawful) {l h : Nat} {mkExt : Vec d K → D c X} {f : Agent d K X → M c X Y β} {Q : β → Prop}
    (hmk : ∀ x, Feas c x → DT Er (mkExt x) (fun _ => True)) (hh : 1 ≤ h)
    (h' : ∀ a, CF c a → WT Er (Inv.std c X J) (l - 1) (h - 1) (f a) Q) :
    WT Er (Inv.std c X J) l h (liftB (Mealpy.generateAgent mkExt) >>= f) Q :=
  WT.bindS (WT.generateAgent hP (Inv.std_box hmk)) hh fun a ha => h' a ha

theorem WT.generatePopulation_std (hE : c.E.Lawful) (hP : c.P.Lawful) {l h n : Nat} {mkExt : Vec d K → D c X}
    {f : List (Agent d K X) → M c X Y β} {Q : β → Prop}
    (hmk : ∀ x, Feas c x → DT Er (mkExt x) (fun _ => True)) (hh : n ≤ h)
    (h' : ∀ a, (a.length = n ∧ ∀ x ∈ a, CF c x) → WT Er (Inv.std c X J) (l - n) (h - n) (f a) Q) :
    WT Er (Inv.std c X J) l h (liftB (Mealpy.generatePopulation mkExt n) >>= f) Q :=
  WT.bindS (WT.generatePopulation hE hP (Inv.std_box hmk)) hh fun a ha => h' a ha

theorem WT.getTarget_std {l h : Nat} {x : Vec d K} {f : Target K → M c X Y β} {Q : β → Prop}
    (hx : Spec.InBox c.P.lb c.P.ub x) (hh : 1 ≤ h)
    (h' : WT Er (Inv.std c X J) (l - 1) (h - 1) (f (c.P.target x)) Q) :
    WT Er (Inv.std c X J) l h (liftB (Mealpy.getTarget x) >>= f) Q :=
  WT.bindS (WT.getTarget (I := Inv.std c X J) hx) hh (by rintro t rfl; exact h')

theorem CF.mk' {x : Vec d K} {e : X} (hx : Spec.InBox c.P.lb c.P.ub x) : CF c (⟨x, c.P.target x, e⟩ : Agent d K X) := ⟨rfl, hx⟩

theorem CF.better {a b : Agent d K X} (ha : CF c a) (hb : CF c b) {mm : MinMax} : CF c (getBetterAgent a b mm) := by
  rcases (getBetterAgent_cases a b mm).1 with h | h <;> rw [h] <;> assumption

theorem CF.extUpd {a : Agent d K X} (ha : CF c a) {e : X} : CF c ({ a with ext := e } : Agent d K X) := ha

/-- an agent known to be coherent and feasible -/
syntax "wcf" : tactic
macro_rules
  | `(tactic| wcf) => `(tactic| first
    | assumption
    | exact CF.mk' (by assumption)
    | (casesm* _ ∧ _; first | assumption | solve_by_elim)
    | exact WInv.pop (by assumption) _ (by dside)
    | exact CF.better (by wcf) (by wcf)
    | exact CF.extUpd (by wcf))

macro_rules
  | `(tactic| wstep) => `(tactic| first
    | (at_bind draw; refine WT.drawPos ?_ (fun _ _ => ?_); focus (dgo; done))
    | (at_bind setAt; refine WT.bind0 (WT.setAt (by wsz) (Inv.std_ag (by wcf))) (fun _ _ => ?_))
    | (at_head setAt; refine WT.weaken (WT.setAt (by wsz) (Inv.std_ag (by wcf))) (by omega) (by omega))
    | (at_bind liftB; refine WT.agentOf_std (by assumption) (by dgo) (by omega) (fun _ _ => ?_))
    | (at_bind liftB; refine WT.getTarget_std (by assumption) (by omega) ?_)
    | (at_bind liftB; refine WT.generateAgent_std (by assumption) (by intros; dgo) (by omega) (fun _ _ => ?_))
    | (at_bind liftB; refine WT.generatePopulation_std (by assumption) (by assumption) (by intros; dgo) (by omega) (fun _ _ => ?_))
    | (at_bind draw; refine WT.bind0 (WT.draw (by dprim)) (fun _ _ => ?_)))

macro_rules
  | `(tactic| istep) => `(tactic| first
    | (at_bind draw; refine IT.bind0 (IT.draw (by dprim)) (fun _ _ => ?_))
    | (at_bind draw; refine IT.drawPos ?_ (fun _ _ => ?_); focus (dgo; done)))

/-! ## Loops -/

theorem WT.iterS {I : Inv c X Y} {f : Nat → Unit → M c X Y Unit} {n : Nat} {g : Unit → M c X Y β} {Q : β → Prop} (k1 k2 : Nat) {lo hi : Nat}
    (hh : n * k2 ≤ hi) (hf : ∀ i, i < n → WT Er I k1 k2 (f i ()) (fun _ => True))
    (h' : WT Er I (lo - n * k1) (hi - n * k2) (g ()) Q) :
    WT Er I lo hi (Mealpy.iter n f () >>= g) Q :=
  WT.bindS (WT.iterU k1 k2 (Nat.le_refl _) (Nat.le_refl _) hf) hh fun _ _ => h'

theorem IT.iterB {f : Nat → Unit → M c X Y Unit} {n : Nat} {g : Unit → M c X Y β} {Q : β → Prop} (k1 k2 : Nat) {lo hi : Nat}
    (hh : n * k2 ≤ hi) (hf : ∀ i, i < n → IT F J k1 k2 (f i ()) (fun _ => True))
    (h' : IT F J (lo - n * k1) (hi - n * k2) (g ()) Q) :
    IT F J lo hi (Mealpy.iter n f () >>= g) Q :=
  IT.bindS (IT.iterS k1 k2 (Nat.le_refl _) (Nat.le_refl _) hf) hh fun _ _ => h'

macro_rules
  | `(tactic| wstep) => `(tactic| first
    | (at_head iter; refine WT.iterU 1 1 (by omega) (by omega) (fun i hi => ?_))
    | (at_head iter; refine WT.iterU 2 2 (by omega) (by omega) (fun i hi => ?_))
    | (at_head iter; refine WT.iterU 0 0 (by omega) (by omega) (fun i hi => ?_))
    | (at_head iter; refine WT.iterU 0 1 (by omega) (by omega) (fun i hi => ?_))
    | (at_head iter; refine WT.iterU 1 2 (by omega) (by omega) (fun i hi => ?_)))

/-! ## Code that holds evaluated agents, then merges them -/

theorem HJ.drawPos {l h : Nat} {G : List (Agent d K X)} {m : D c (Vec d K)} {f : Vec d K → M c X Y β} {H : β → List (Agent d K X)} {Q : β → Prop}
    (hm : DT noErr m (fun x => Spec.InBox c.P.lb c.P.ub x)) (h' : ∀ a, Spec.InBox c.P.lb c.P.ub a → HJ F J l h G (f a) H Q) :
    HJ F J l h G (Mealpy.draw m >>= f) H Q := HJ.bind0 (HJ.draw hm) h'

theorem HJ.drawT {l h : Nat} {G : List (Agent d K X)} {m : D c α} {f : α → M c X Y β} {H : β → List (Agent d K X)} {Q : β → Prop}
    (hm : DT noErr m (fun _ => True)) (h' : ∀ a, HJ F J l h G (f a) H Q) :
    HJ F J l h G (Mealpy.draw m >>= f) H Q := HJ.bind0 (HJ.draw hm) fun a _ => h' a

/-- one step of code that holds evaluated agents -/
syntax "hstep" : tactic
macro_rules
  | `(tactic| hstep) => `(tactic|
    first
      | (at_bind MonadState.get; refine HJ.bind0 (HJ.ofIT IT.get) (fun s hs => ?_); have hlen := GoodPop.len (Mid.toGoodPop hs))
      | (at_bind draw; refine HJ.bind0 (HJ.draw (by dprim)) (fun _ _ => ?_))
      | (at_bind draw; refine HJ.drawPos ?_ (fun _ _ => ?_); focus (dgo; done))
      | (at_bind draw; refine HJ.drawT ?_ (fun _ => ?_); focus (dgo; done))
      | (at_bind buildEval; refine HJ.bindS (HJ.buildEval (by assumption) ?_) (by omega) (fun _ _ => ?_); focus (mkgo; done))
      | (at_bind greedyLoop; refine HJ.bindS (HJ.ofIT (IT.greedyLoop (by assumption) ?_)) (by omega) (fun _ _ => ?_); focus (mkgo; done))
      | (at_bind modExt; refine HJ.bind0 (HJ.ofIT (IT.modExt (by intro _ h; first | exact trivial | exact h))) (fun _ _ => ?_))
      | (at_bind liftB; refine HJ.bindS (HJ.agentOf (by assumption) (DT.pure (by assumption))) (by omega) (fun _ _ => ?_))
      | (at_head mergeTrim; exact HJ.weaken (HJ.mergeTrim (by assumption) (by omega)) (by omega) (by omega))
      | (at_head selectGreedy; exact HJ.weaken (HJ.selectGreedy (by dside)) (by omega) (by omega))
      | (at_head ite; refine HJ.ite (fun _ => ?_) (fun _ => ?_))
      | (at_match; split))

/-- walk over code that holds evaluated agents -/
syntax "hwalk" : tactic
macro_rules
  | `(tactic| hwalk) => `(tactic| repeat' hstep)

/-- a whole `evolve` that holds evaluated agents and loses nothing -/
syntax "hauto" : tactic
macro_rules
  | `(tactic| hauto) => `(tactic| (refine IT.pt (HJ.it ?_); hwalk))

/-! ## Code that holds evaluated agents, which then become the population -/

/-- what was evaluated since `s` is held in `H` -/
structure RepH (F : Agent d K X → Prop) (J : Y → Prop) (lo hi : Nat) (s s' : St c X Y) (H : List (Agent d K X)) :
    Prop where
  good : GoodPop F J s'
  hist : s'.hist = s.hist
  gbest : s'.gbest = s.gbest
  evals : ∃ new, s'.base.log = s.base.log ++ new ∧ lo ≤ new.length ∧ new.length ≤ hi ∧
    s'.base.nfe = s.base.nfe + new.length ∧ ∀ x ∈ new, Feas c x ∧ ∃ a ∈ H, NoWorse c.P.mm a.fit (c.P.target x).fitness
  held : ∀ a ∈ H, Evald c s'.base.log a ∧ F a

theorem RepH.log_sub {lo hi : Nat} {s s' : St c X Y} {H : List (Agent d K X)} (h : RepH F J lo hi s s' H) :
    ∀ x ∈ s.base.log, x ∈ s'.base.log := by
  obtain ⟨new, h1, -⟩ := h.evals
  intro x hx
  rw [h1]
  exact List.mem_append_left _ hx

theorem RepH.mid {lo hi : Nat} {s s' : St c X Y} {H : List (Agent d K X)} (h : RepH F J lo hi s s' H)
    (hs : Mid F J s) : Mid F J s' :=
  ⟨h.good, by rw [h.gbest]; exact hs.gev.mono h.log_sub, by rw [h.gbest]; exact hs.gfeas⟩

theorem RepH.weaken {lo hi lo' hi' : Nat} {s s' : St c X Y} {H : List (Agent d K X)} (h : RepH F J lo hi s s' H)
    (h1 : lo' ≤ lo) (h2 : hi ≤ hi') : RepH F J lo' hi' s s' H := by
  obtain ⟨n1, a1, a2, a3, a4, a5⟩ := h.evals
  exact ⟨h.good, h.hist, h.gbest, ⟨n1, a1, by omega, by omega, a4, a5⟩, h.held⟩

theorem RepH.batch {lo hi : Nat} {s s1 s2 : St c X Y} {G new : List (Agent d K X)} (h : RepH F J lo hi s s1 G)
    (hb : Batch F s1 new s2) : RepH F J (lo + new.length) (hi + new.length) s s2 (G ++ new) := by
  have hb' := ImpH.ofBatch h.good hb
  obtain ⟨n1, a1, a2, a3, a4, a5⟩ := h.evals
  obtain ⟨xs, hx1, hx2⟩ := hb.log
  refine ⟨hb'.good, by rw [hb'.hist, h.hist], by rw [hb'.gbest, h.gbest], ⟨n1 ++ xs, by rw [hx1, a1, List.append_assoc], ?_, ?_, ?_, ?_⟩, ?_⟩
  · simp [hx2.length_eq]; omega
  · simp [hx2.length_eq]; omega
  · rw [hb.nfe, a4]; simp [hx2.length_eq]; omega
  · intro x hx
    rcases List.mem_append.1 hx with hx | hx
    · obtain ⟨g1, a, g2, g3⟩ := a5 x hx
      exact ⟨g1, a, List.mem_append_left _ g2, g3⟩
    · obtain ⟨a, ha, rfl⟩ := List.mem_map.1 (hx2.mem_iff.1 hx)
      have hok := hb.ok a ha
      refine ⟨hok.1, a, List.mem_append_right _ ha, ?_⟩
      have : a.fit = (c.P.target a.sol).fitness := by rw [← hok.2.2]; rfl
      rw [this]
      exact NoWorse.rfl
  · intro a ha
    rcases List.mem_append.1 ha with ha | ha
    · exact ⟨(h.held a ha).1.mono hb'.log_sub, (h.held a ha).2⟩
    · exact hb'.held a ha

/-- code that evaluates agents, which it holds -/
def RJ (F : Agent d K X → Prop) (J : Y → Prop) (lo hi : Nat) (G : List (Agent d K X)) (m : M c X Y α)
    (H : α → List (Agent d K X)) (R : α → Prop) : Prop :=
  ∀ s0 s l h, Mid F J s0 → RepH F J l h s0 s G →
    Wp noErr m s (fun a s' => RepH F J (l + lo) (h + hi) s0 s' (H a) ∧ R a)

/-- code after which the held agents have become the population -/
def RT (F : Agent d K X → Prop) (J : Y → Prop) (lo hi : Nat) (G : List (Agent d K X)) (m : M c X Y α) (R : α → Prop) : Prop :=
  ∀ s0 s l h, Mid F J s0 → RepH F J l h s0 s G →
    Wp noErr m s (fun a s' => Post F J (l + lo) (h + hi) s0 s' ∧ Mid F J s' ∧ R a)

theorem RT.pt {lo hi : Nat} {m : M c X Y α} {R : α → Prop} (h : RT F J lo hi [] m R) : PT F J lo hi m R := by
  intro s hs
  have h0 : RepH F J 0 0 s s [] := ⟨hs.toGoodPop, rfl, rfl, ⟨[], by simp, by simp, by simp, by simp, by simp⟩, by simp⟩
  exact Wp.mono (h s s 0 0 hs h0) fun a s' h => ⟨h.1.weaken (by omega) (by omega), h.2⟩

theorem RT.bindS {lo hi l1 h1 : Nat} {G : List (Agent d K X)} {m : M c X Y α} {f : α → M c X Y β} {H : α → List (Agent d K X)}
    {R : α → Prop} {Q : β → Prop}
    (h : RJ F J l1 h1 G m H R) (hle : h1 ≤ hi) (h' : ∀ a, R a → RT F J (lo - l1) (hi - h1) (H a) (f a) Q) :
    RT F J lo hi G (m >>= f) Q := by
  intro s0 s l k hs0 hs
  refine Wp.bind (Wp.mono (h s0 s l k hs0 hs) ?_)
  rintro a s1 ⟨g1, g2⟩
  exact Wp.mono (h' a g2 s0 s1 _ _ hs0 g1) fun b s2 g => ⟨g.1.weaken (by omega) (by omega), g.2⟩

theorem RT.bind0 {lo hi : Nat} {G : List (Agent d K X)} {m : M c X Y α} {f : α → M c X Y β} {H : α → List (Agent d K X)}
    {R : α → Prop} {Q : β → Prop}
    (h : RJ F J 0 0 G m H R) (h' : ∀ a, R a → RT F J lo hi (H a) (f a) Q) : RT F J lo hi G (m >>= f) Q :=
  RT.bindS h (by omega) h'

/-- replacing code followed by improving code -/
theorem RT.thenIT {lo hi l1 h1 : Nat} {G : List (Agent d K X)} {m : M c X Y α} {f : α → M c X Y β} {R : α → Prop} {Q : β → Prop}
    (h : RT F J l1 h1 G m R) (hle : h1 ≤ hi) (h' : ∀ a, R a → IT F J (lo - l1) (hi - h1) (f a) Q) :
    RT F J lo hi G (m >>= f) Q := by
  intro s0 s l k hs0 hs
  refine Wp.bind (Wp.mono (h s0 s l k hs0 hs) ?_)
  rintro a s' ⟨g1, g2, g3⟩
  refine Wp.mono (h' a g3 s' g2) ?_
  rintro b s'' ⟨k1, k2⟩
  refine ⟨⟨k1.good, by rw [k1.hist, g1.hist], ?_⟩, k1.toStep.mid g2, k2⟩
  obtain ⟨n1, a1, a2, a3, a4, a5⟩ := g1.evals
  obtain ⟨n2, b1, b2, b3, b4, b5⟩ := k1.evals
  refine ⟨n1 ++ n2, by rw [b1, a1, List.append_assoc], by simp; omega, by simp; omega,
    by simp; omega, ?_⟩
  intro x hx
  rcases List.mem_append.1 hx with hx | hx
  · exact ⟨(a5 x hx).1, (a5 x hx).2.imp k1⟩
  · exact b5 x hx

theorem RT.weaken {lo hi lo' hi' : Nat} {G : List (Agent d K X)} {m : M c X Y α} {R : α → Prop}
    (h : RT F J lo hi G m R) (h1 : lo' ≤ lo) (h2 : hi ≤ hi') : RT F J lo' hi' G m R := by
  intro s0 s l k hs0 hs
  exact Wp.mono (h s0 s l k hs0 hs) fun a s1 g => ⟨g.1.weaken (by omega) (by omega), g.2⟩

theorem RJ.ofPure {G : List (Agent d K X)} {m : M c X Y α} {R : α → Prop} (h : IT F J 0 0 m R)
    (hp : ∀ s, Wp noErr m s (fun _ s' => s'.pop = s.pop)) : RJ F J 0 0 G m (fun _ => G) R := by
  intro s0 s l k hs0 hs
  refine Wp.mono (h s (hs.mid hs0)) fun a s' g => ⟨?_, g.2⟩
  obtain ⟨n1, a1, a2, a3, a4, a5⟩ := hs.evals
  obtain ⟨n2, b1, b2, b3, b4, b5⟩ := g.1.evals
  have : n2 = [] := List.length_eq_zero_iff.1 (by omega)
  subst this
  simp only [List.append_nil, List.length_nil, Nat.add_zero] at b1 b4
  exact ⟨g.1.good, by rw [g.1.hist, hs.hist], by rw [g.1.gbest, hs.gbest],
    ⟨n1, by rw [b1, a1], a2, a3, by rw [b4, a4], a5⟩, fun a ha => by rw [b1]; exact hs.held a ha⟩

theorem RJ.get {G : List (Agent d K X)} : RJ F J 0 0 G (MonadState.get : M c X Y _) (fun _ => G) (Mid F J) :=
  RJ.ofPure IT.get fun s => Wp.get rfl

theorem RJ.draw {G : List (Agent d K X)} {m : D c α} {R : α → Prop} (h : DT noErr m R) :
    RJ F J 0 0 G (Mealpy.draw m : M c X Y α) (fun _ => G) R :=
  RJ.ofPure (IT.draw h) fun s => Wp.draw h fun a r v hR => rfl

theorem RJ.modExt {G : List (Agent d K X)} {f : Y → Y} (h : ∀ y, J y → J (f y)) :
    RJ F J 0 0 G (Mealpy.modExt f : M c X Y Unit) (fun _ => G) (fun _ => True) :=
  RJ.ofPure (IT.modExt h) fun s => Wp.modify rfl

theorem RJ.buildEval (hE : c.E.Lawful) {n : Nat} {G : List (Agent d K X)} {mk : St c X Y → Nat → D c (Vec d K × X)}
    (hmk : ∀ (s : St c X Y) (i : Nat), Mid F J s → s.pop.length = c.popSize → i < n → DT noErr (mk s i) (MkOk F c)) :
    RJ F J n n G (Mealpy.buildEval n mk : M c X Y _) (fun new => G ++ new) (fun new => new.length = n ∧ ∀ a ∈ new, F a) := by
  intro s0 s l k hs0 hs
  refine Wp.mono (buildEval_batch hE (hs.mid hs0) (fun s i hs => hmk s i hs hs.len)) ?_
  rintro new s1 ⟨h1, h2⟩
  have := hs.batch h2
  rw [h1] at this
  exact ⟨this, h1, fun a ha => (this.held a (List.mem_append_right _ ha)).2⟩

theorem RJ.agentOf {G : List (Agent d K X)} {x : Vec d K} {mkExt : Vec d K → D c X} (hx : Feas c x)
    (hmk : DT noErr (mkExt x) (fun e => F ⟨x, c.P.target x, e⟩)) :
    RJ F J 1 1 G (liftB (Mealpy.agentOf mkExt x) : M c X Y _) (fun a => G ++ [a]) (fun a => F a ∧ a.tgt = c.P.target a.sol ∧ a.sol = x) := by
  intro s0 s l k hs0 hs
  refine Wp.liftB (Wp.mono (agentOf_spec hmk) ?_)
  rintro a b' ⟨h1, h2, h3, h4, h5⟩
  have hb : Batch F s [a] { s with base := b' } := by
    refine ⟨?_, ⟨[x], h4, by simp [h1]⟩, by simpa using h5, rfl, rfl, rfl, rfl⟩
    intro a' ha'
    rw [List.mem_singleton.1 ha']
    exact ⟨by rw [h1]; exact hx, h3, by rw [h2, h1]⟩
  have := hs.batch hb
  exact ⟨this, h3, by rw [h2, h1], h1⟩

/-- the new population is made of held and old agents and loses none of the held ones -/
theorem RT.modifyPop {G : List (Agent d K X)} {f : St c X Y → List (Agent d K X)}
    (h : ∀ s, Mid F J s → (f s).length = c.popSize ∧ (∀ a ∈ f s, a ∈ s.pop ∨ a ∈ G) ∧
      ∀ a ∈ G, ∃ a' ∈ f s, NoWorse c.P.mm a'.fit a.fit) :
    RT F J 0 0 G (modify (fun s => { s with pop := f s }) : M c X Y PUnit) (fun _ => True) := by
  intro s0 s l k hs0 hs
  obtain ⟨h1, h2, h3⟩ := h s (hs.mid hs0)
  obtain ⟨n1, a1, a2, a3, a4, a5⟩ := hs.evals
  have hev : ∀ a ∈ f s, Evald c s.base.log a ∧ F a := by
    intro a ha
    rcases h2 a ha with g | g
    · exact ⟨hs.good.ev a g, hs.good.feas a g⟩
    · exact hs.held a g
  have hmid := hs.mid hs0
  refine Wp.modify ⟨⟨⟨h1, fun a ha => (hev a ha).1, fun a ha => (hev a ha).2, hs.good.ext⟩, hs.hist, n1, a1, by omega, by omega, a4, ?_⟩, ?_, trivial⟩
  · intro x hx
    obtain ⟨g1, a, g2, g3⟩ := a5 x hx
    obtain ⟨a', g4, g5⟩ := h3 a g2
    exact ⟨g1, .inr ⟨a', g4, g5.trans g3⟩⟩
  · exact ⟨⟨h1, fun a ha => (hev a ha).1, fun a ha => (hev a ha).2, hs.good.ext⟩, hmid.gev, hmid.gfeas⟩

theorem RT.setPop {G l : List (Agent d K X)} (h1 : l.length = c.popSize) (h2 : ∀ a ∈ l, a ∈ G)
    (h3 : ∀ a ∈ G, ∃ a' ∈ l, NoWorse c.P.mm a'.fit a.fit) :
    RT F J 0 0 G (Mealpy.setPop l : M c X Y Unit) (fun _ => True) :=
  RT.modifyPop (f := fun _ => l) fun s hs => ⟨h1, fun a ha => .inr (h2 a ha), h3⟩

theorem RT.reshape {G : List (Agent d K X)} {f : List (Agent d K X) → List (Agent d K X)}
    (h : ∀ pop : List (Agent d K X), pop.length = c.popSize → (f pop).length = c.popSize ∧ (∀ a ∈ f pop, a ∈ pop ∨ a ∈ G) ∧
      ∀ a ∈ G, ∃ a' ∈ f pop, NoWorse c.P.mm a'.fit a.fit) :
    RT F J 0 0 G (Mealpy.reshape f : M c X Y Unit) (fun _ => True) :=
  RT.modifyPop (f := fun s => f s.pop) fun s hs => h s.pop hs.len

theorem RT.ite {p : Prop} [Decidable p] {lo hi : Nat} {G : List (Agent d K X)} {m n : M c X Y α} {R : α → Prop}
    (h : p → RT F J lo hi G m R) (h' : ¬ p → RT F J lo hi G n R) : RT F J lo hi G (if p then m else n) R :=
  fun s0 s l k hs0 hs => Wp.ite (fun hp => h hp s0 s l k hs0 hs) (fun hp => h' hp s0 s l k hs0 hs)

theorem RT.drawPos {l h : Nat} {G : List (Agent d K X)} {m : D c (Vec d K)} {f : Vec d K → M c X Y β} {Q : β → Prop}
    (hm : DT noErr m (fun x => Spec.InBox c.P.lb c.P.ub x)) (h' : ∀ a, Spec.InBox c.P.lb c.P.ub a → RT F J l h G (f a) Q) :
    RT F J l h G (Mealpy.draw m >>= f) Q := RT.bind0 (RJ.draw hm) h'

theorem RT.drawT {l h : Nat} {G : List (Agent d K X)} {m : D c α} {f : α → M c X Y β} {Q : β → Prop}
    (hm : DT noErr m (fun _ => True)) (h' : ∀ a, RT F J l h G (f a) Q) :
    RT F J l h G (Mealpy.draw m >>= f) Q := RT.bind0 (RJ.draw hm) fun a _ => h' a

/-- one step of code that holds evaluated agents -/
syntax "rstep" : tactic
macro_rules
  | `(tactic| rstep) => `(tactic|
    first
      | (at_bind MonadState.get; refine RT.bind0 RJ.get (fun s hs => ?_); have hlen := GoodPop.len (Mid.toGoodPop hs))
      | (at_bind draw; refine RT.bind0 (RJ.draw (by dprim)) (fun _ _ => ?_))
      | (at_bind draw; refine RT.drawPos ?_ (fun _ _ => ?_); focus (dgo; done))
      | (at_bind draw; refine RT.drawT ?_ (fun _ => ?_); focus (dgo; done))
      | (at_bind buildEval; refine RT.bindS (RJ.buildEval (by assumption) ?_) (by omega) (fun _ _ => ?_); focus (mkgo; done))
      | (at_bind modExt; refine RT.bind0 (RJ.modExt (by intro _ h; first | exact trivial | exact h)) (fun _ _ => ?_))
      | (at_bind liftB; refine RT.bindS (RJ.agentOf (by assumption) (DT.pure (by assumption))) (by omega) (fun _ _ => ?_))
      | (at_head ite; refine RT.ite (fun _ => ?_) (fun _ => ?_))
      | (at_match; split))

/-- walk over code that holds evaluated agents, which then become the population -/
syntax "rwalk" : tactic
macro_rules
  | `(tactic| rwalk) => `(tactic| (refine RT.pt ?_; repeat' rstep))

macro_rules
  | `(tactic| dprim) => `(tactic| (at_head amendClip; exact DT.amendClip))

/-- `greedy_selection_population(old, new)` for two equally long lists (`mealpy/optimizer.py:577-607`) -/
def zipGreedy (mm : MinMax) (old new : List (Agent d K X)) : List (Agent d K X) := List.zipWith (greedyPick mm) old new

/-- slot by slot `get_better_agent(a, b)` (`mealpy/optimizer.py:555-573`) -/
def zipBetter (mm : MinMax) (as bs : List (Agent d K X)) : List (Agent d K X) :=
  List.zipWith (fun a b => getBetterAgent a b mm) as bs

theorem zipGreedy_length {mm : MinMax} {a b : List (Agent d K X)} : (zipGreedy mm a b).length = min a.length b.length := by
  simp [zipGreedy]

theorem zipBetter_length {mm : MinMax} {a b : List (Agent d K X)} : (zipBetter mm a b).length = min a.length b.length := by
  simp [zipBetter]

theorem mem_zipWith' {α β γ : Type} {f : α → β → γ} {l : List α} {l' : List β} {z : γ} (h : z ∈ List.zipWith f l l') :
    ∃ x ∈ l, ∃ y ∈ l', z = f x y := by
  obtain ⟨i, hi, rfl⟩ := List.getElem_of_mem h
  simp only [List.length_zipWith] at hi
  exact ⟨l[i]'(by omega), List.getElem_mem _, l'[i]'(by omega), List.getElem_mem _, by simp⟩

theorem zipGreedy_all {mm : MinMax} {a b : List (Agent d K X)} {p : Agent d K X → Prop} (ha : ∀ x ∈ a, p x) (hb : ∀ x ∈ b, p x) :
    ∀ x ∈ zipGreedy mm a b, p x := by
  intro z hz
  obtain ⟨x, hx, y, hy, rfl⟩ := mem_zipWith' hz
  rcases (greedyPick_cases mm x y).1 with h | h <;> rw [h]
  · exact ha x hx
  · exact hb y hy

theorem zipBetter_all {mm : MinMax} {a b : List (Agent d K X)} {p : Agent d K X → Prop} (ha : ∀ x ∈ a, p x) (hb : ∀ x ∈ b, p x) :
    ∀ x ∈ zipBetter mm a b, p x := by
  intro z hz
  obtain ⟨x, hx, y, hy, rfl⟩ := mem_zipWith' hz
  rcases (getBetterAgent_cases x y mm).1 with h | h <;> rw [h]
  · exact ha x hx
  · exact hb y hy

theorem zipGreedy_left {mm : MinMax} {a b : List (Agent d K X)} (hl : a.length ≤ b.length) :
    ∀ x ∈ a, ∃ z ∈ zipGreedy mm a b, NoWorse mm z.fit x.fit := by
  intro x hx
  obtain ⟨i, hi, rfl⟩ := List.getElem_of_mem hx
  refine ⟨greedyPick mm a[i] (b[i]'(by omega)), ?_, (greedyPick_cases mm _ _).2.1⟩
  exact List.mem_of_getElem (i := i) (h := by simp [zipGreedy]; omega) (by simp [zipGreedy])

theorem zipGreedy_right {mm : MinMax} {a b : List (Agent d K X)} (hl : b.length ≤ a.length) :
    ∀ x ∈ b, ∃ z ∈ zipGreedy mm a b, NoWorse mm z.fit x.fit := by
  intro x hx
  obtain ⟨i, hi, rfl⟩ := List.getElem_of_mem hx
  refine ⟨greedyPick mm (a[i]'(by omega)) b[i], ?_, (greedyPick_cases mm _ _).2.2.1⟩
  exact List.mem_of_getElem (i := i) (h := by simp [zipGreedy]; omega) (by simp [zipGreedy])

theorem zipBetter_left {mm : MinMax} {a b : List (Agent d K X)} (hl : a.length ≤ b.length) :
    ∀ x ∈ a, ∃ z ∈ zipBetter mm a b, NoWorse mm z.fit x.fit := by
  intro x hx
  obtain ⟨i, hi, rfl⟩ := List.getElem_of_mem hx
  refine ⟨getBetterAgent a[i] (b[i]'(by omega)) mm, ?_, (getBetterAgent_cases _ _ mm).2.1⟩
  exact List.mem_of_getElem (i := i) (h := by simp [zipBetter]; omega) (by simp [zipBetter])

theorem zipBetter_right {mm : MinMax} {a b : List (Agent d K X)} (hl : b.length ≤ a.length) :
    ∀ x ∈ b, ∃ z ∈ zipBetter mm a b, NoWorse mm z.fit x.fit := by
  intro x hx
  obtain ⟨i, hi, rfl⟩ := List.getElem_of_mem hx
  refine ⟨getBetterAgent (a[i]'(by omega)) b[i] mm, ?_, (getBetterAgent_cases _ _ mm).2.2⟩
  exact List.mem_of_getElem (i := i) (h := by simp [zipBetter]; omega) (by simp [zipBetter])

/-- `[l[i] for i in is]` for valid indices -/
def picks {α : Type} (l : List α) (is : List Nat) : List α := is.filterMap (fun i => l[i]?)

theorem picks_length {α : Type} {l : List α} {is : List Nat} (h : ∀ i ∈ is, i < l.length) : (picks l is).length = is.length := by
  induction is with
  | nil => rfl
  | cons i t ih =>
    have := ih fun j hj => h j (List.mem_cons_of_mem _ hj)
    have hi := h i (List.mem_cons_self ..)
    simp only [picks] at this ⊢
    simp [hi, this]

theorem picks_all {α : Type} {l : List α} {is : List Nat} {p : α → Prop} (h : ∀ a ∈ l, p a) : ∀ a ∈ picks l is, p a := by
  intro a ha
  obtain ⟨i, -, hi⟩ := List.mem_filterMap.1 ha
  exact h a (List.mem_of_getElem? hi)

macro_rules
  | `(tactic| wsz) => `(tactic| (intro n hn; change n = _ at hn; subst hn; casesm* _ ∧ _; solve_by_elim))

/-- `np.prod` -/
def prodL (l : List K) : K := l.foldl (· * ·) 1

/-- a sorted population, its first entries kept -/
theorem sorted_take_cover (hE : c.E.Lawful) {l : List (Agent d K X)} {n : Nat} (hn : 0 < n) {b : Agent d K X} (hb : b ∈ l) :
    ∃ a ∈ (getSorted c.E.argsort l c.P.mm).1.take n, NoWorse c.P.mm a.fit b.fit := trimmed_cover hE hn hb

end Mealpy
