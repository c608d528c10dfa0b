import Verif.Alg.Kit5

/-!
# More pieces of optimizers, part 6

Batches whose body makes several agents, batches evaluated one by one whatever the mode, holding members of the population.
-/

set_option linter.unusedSectionVars false
set_option linter.unusedVariables false

namespace Mealpy
open Spec

variable {d : Nat} {K : Type} [Num K] {c : Cfg d K} {X Y : Type} {α β : Type} {Er : Err → Prop}
variable {F : Agent d K X → Prop} {J : Y → Prop}

/-! ## Draws -/

/-- `generator.permutation(l)[0]` -/
def pickPerm {α : Type} (l : List α) : D c α := do
  let per ← permutation l.length
  let k ← nth per 0
  nth l k

theorem DT.pickPerm (hE : c.E.Lawful) {l : List α} (h : 0 < l.length) : DT Er (Mealpy.pickPerm l : D c α) (fun a => a ∈ l) := by
  unfold Mealpy.pickPerm
  refine DT.bind (DT.permutation' hE) fun per hper => DT.bind (DT.nth_mem (by omega)) fun k hk => ?_
  exact DT.nth_mem (hper.2 k hk)

/-- `generator.choice([j for j in range(n) if j != i])`, `i` if there is no such `j` -/
def pickOr (n i : Nat) : D c Nat := if 1 < n then pickWithout n [i] else pure i

theorem DT.pickOr (hE : c.E.Lawful) {n i : Nat} (hi : i < n) : DT Er (Mealpy.pickOr n i : D c Nat) (fun j => j < n) := by
  unfold Mealpy.pickOr
  exact DT.ite (fun h => DT.mono (DT.pickWithout hE h) fun j hj => hj.1) fun _ => DT.pure hi

/-- the agents with strictly better fitness than `f` (`np.where(fits < f)`, for instance `mealpy/swarm_based/STO.py:79-85`) -/
def betterThan (mm : MinMax) (pop : List (Agent d K X)) (f : K) : List (Agent d K X) :=
  pop.filter (fun a => match mm with
    | .min => decide (a.fit < f)
    | .max => decide (f < a.fit))

theorem argminL_lt {l : List K} (h : 0 < l.length) : argminL l < l.length := by
  unfold argminL
  rw [List.findIdx_lt_length]
  obtain ⟨m, hm⟩ := listMin_isSome (List.length_pos_iff.1 h)
  exact ⟨m, (listMin_some hm).1, by simp [minL, hm]⟩

theorem minL_spec {l : List K} (h : 0 < l.length) : minL l ∈ l ∧ ∀ x ∈ l, minL l ≤ x := by
  obtain ⟨m, hm⟩ := listMin_isSome (List.length_pos_iff.1 h)
  have := listMin_some hm
  simpa [minL, hm] using this

theorem maxL_spec {l : List K} (h : 0 < l.length) : maxL l ∈ l ∧ ∀ x ∈ l, x ≤ maxL l := by
  obtain ⟨m, hm⟩ := listMax_isSome (List.length_pos_iff.1 h)
  have := listMax_some hm
  simpa [maxL, hm] using this

/-- `[*m(0), …, *m(n - 1)]` -/
def gather {α : Type} (n : Nat) (m : Nat → D c (List α)) : D c (List α) :=
  iter n (fun i acc => do
    let l ← m i
    pure (acc ++ l)) []

theorem DT.gather {n k1 k2 : Nat} {m : Nat → D c (List α)} {Q : α → Prop}
    (h : ∀ i, i < n → DT Er (m i) (fun l => (k1 ≤ l.length ∧ l.length ≤ k2) ∧ ∀ a ∈ l, Q a)) :
    DT Er (Mealpy.gather n m : D c (List α)) (fun l => (n * k1 ≤ l.length ∧ l.length ≤ n * k2) ∧ ∀ a ∈ l, Q a) := by
  unfold Mealpy.gather
  refine DT.iter (fun i (l : List α) => (i * k1 ≤ l.length ∧ l.length ≤ i * k2) ∧ ∀ a ∈ l, Q a) _ (by simp) fun i l hi hl => ?_
  refine DT.bind (h i hi) fun l' hl' => DT.pure ⟨?_, fun a ha => ?_⟩
  · rw [List.length_append, Nat.succ_mul, Nat.succ_mul]; omega
  · rcases List.mem_append.1 ha with g | g
    · exact hl.2 a g
    · exact hl'.2 a g

/-! ## Batches -/

/-- evaluate the agents made: in bulk, or in `single` mode one by one -/
def evalAll (pend : List (Vec d K × X)) : M c X Y (List (Agent d K X)) := buildEval pend.length (fun _ i => nth pend i)

theorem HJ.evalAll (hE : c.E.Lawful) {G : List (Agent d K X)} {pend : List (Vec d K × X)} (hp : ∀ p ∈ pend, MkOk F c p) :
    HJ F J pend.length pend.length G (Mealpy.evalAll pend : M c X Y _) (fun new => G ++ new)
      (fun new => new.length = pend.length ∧ ∀ a ∈ new, F a) :=
  HJ.buildEval hE fun s i hs hl hi => DT.mono (DT.nth_mem hi) hp

theorem RJ.evalAll (hE : c.E.Lawful) {G : List (Agent d K X)} {pend : List (Vec d K × X)} (hp : ∀ p ∈ pend, MkOk F c p) :
    RJ F J pend.length pend.length G (Mealpy.evalAll pend : M c X Y _) (fun new => G ++ new)
      (fun new => new.length = pend.length ∧ ∀ a ∈ new, F a) :=
  RJ.buildEval hE fun s i hs hl hi => DT.mono (DT.nth_mem hi) hp

theorem WT.evalAll {I : Inv c X Y} (hE : c.E.Lawful) {pend : List (Vec d K × X)} (hp : ∀ p ∈ pend, I.Mk p) :
    WT Er I pend.length pend.length (Mealpy.evalAll pend : M c X Y _) (fun l => l.length = pend.length ∧ ∀ a ∈ l, I.Ag a) :=
  WT.buildEval hE fun s i hs hi => DT.mono (DT.nth_mem hi) hp

theorem Framed.evalAll {q : Bool} (hE : c.E.Lawful) {pend : List (Vec d K × X)} : Framed q (Mealpy.evalAll pend : M c X Y _) :=
  Framed.buildEval hE

/-- evaluate agents one by one -/
def evalSeq : List (Vec d K × X) → M c X Y (List (Agent d K X))
  | [] => pure []
  | p :: ps => do
    let t ← liftB (getTarget p.1)
    let l ← evalSeq ps
    pure (⟨p.1, t, p.2⟩ :: l)

theorem HJ.evalSeq : ∀ {G : List (Agent d K X)} {pend : List (Vec d K × X)} (_ : ∀ p ∈ pend, MkOk F c p),
    HJ F J pend.length pend.length G (Mealpy.evalSeq pend : M c X Y _) (fun new => G ++ new)
      (fun new => new.length = pend.length ∧ ∀ a ∈ new, F a)
  | G, [], _ => HJ.pure (by simp) ⟨rfl, by simp⟩
  | G, p :: ps, hp => by
    unfold Mealpy.evalSeq
    refine HJ.bindS (HJ.getTarget (e := p.2) (hp p (by simp))) (by simp) fun t ht => ?_
    refine HJ.bindS (HJ.evalSeq (fun q hq => hp q (by simp [hq]))) (by simp) fun l hl => ?_
    refine HJ.weaken (HJ.pure (by simp) ⟨by simp [hl.1], fun a ha => ?_⟩) (by simp) (by simp)
    rcases List.mem_cons.1 ha with rfl | h
    · rw [ht]; exact (hp p (by simp)).2
    · exact hl.2 a h

theorem RJ.getTarget {G : List (Agent d K X)} {x : Vec d K} {e : X} (hx : MkOk F c (x, e)) :
    RJ F J 1 1 G (liftB (Mealpy.getTarget x) : M c X Y _) (fun t => G ++ [⟨x, t, e⟩]) (fun t => t = c.P.target x) := by
  intro s0 s l k hs0 hs
  refine Wp.liftB (Wp.getTarget ?_)
  have hb : Batch F s [⟨x, c.P.target x, e⟩] { s with base := { s.base with nfe := s.base.nfe + 1, log := s.base.log ++ [x] } } := by
    refine ⟨?_, ⟨[x], rfl, by simp⟩, rfl, rfl, rfl, rfl, rfl⟩
    intro a' ha'
    rw [List.mem_singleton.1 ha']
    exact ⟨hx.1, hx.2, rfl⟩
  exact ⟨hs.batch hb, rfl⟩

theorem RJ.evalSeq : ∀ {G : List (Agent d K X)} {pend : List (Vec d K × X)} (_ : ∀ p ∈ pend, MkOk F c p),
    RJ F J pend.length pend.length G (Mealpy.evalSeq pend : M c X Y _) (fun new => G ++ new)
      (fun new => new.length = pend.length ∧ ∀ a ∈ new, F a)
  | G, [], _ => RJ.pure (by simp) ⟨rfl, by simp⟩
  | G, p :: ps, hp => by
    unfold Mealpy.evalSeq
    refine RJ.weaken (RJ.bind (RJ.getTarget (e := p.2) (hp p (by simp))) fun t ht => ?_) (lo := 1 + (ps.length + 0)) (hi := 1 + (ps.length + 0)) (by simp; omega) (by simp; omega)
    refine RJ.bind (RJ.evalSeq (fun q hq => hp q (by simp [hq]))) fun l hl => ?_
    refine RJ.pure (by simp) ⟨by simp [hl.1], fun a ha => ?_⟩
    rcases List.mem_cons.1 ha with rfl | h
    · rw [ht]; exact (hp p (by simp)).2
    · exact hl.2 a h

theorem WT.evalSeq {I : Inv c X Y} : ∀ {pend : List (Vec d K × X)} (_ : ∀ p ∈ pend, I.Mk p),
    WT Er I pend.length pend.length (Mealpy.evalSeq pend : M c X Y _) (fun l => l.length = pend.length ∧ ∀ a ∈ l, I.Ag a)
  | [], _ => WT.pure ⟨rfl, by simp⟩
  | p :: ps, hp => by
    unfold Mealpy.evalSeq
    refine WT.bindS (WT.getTarget (hp p (by simp)).1) (by simp) fun t ht => ?_
    refine WT.bindS (WT.evalSeq (fun q hq => hp q (by simp [hq]))) (by simp) fun l hl => ?_
    refine WT.weaken (WT.pure ⟨by simp [hl.1], fun a ha => ?_⟩) (by simp) (by simp)
    rcases List.mem_cons.1 ha with rfl | h
    · exact ⟨ht, by rw [ht]; exact (hp p (by simp)).2⟩
    · exact hl.2 a h

theorem Framed.evalSeq {q : Bool} : ∀ {pend : List (Vec d K × X)}, Framed q (Mealpy.evalSeq pend : M c X Y _)
  | [] => .pure
  | _ :: _ => .bind (.liftB .getTarget) fun _ => .bind Framed.evalSeq fun _ => .pure

/-- `buildEval` for a body that makes several agents (`mealpy/swarm_based/MGO.py:109-114`) -/
def buildEvalL (n : Nat) (mk : St c X Y → Nat → D c (List (Vec d K × X))) : M c X Y (List (Agent d K X)) :=
  if c.swarmLike then do
    let s ← get
    let pend ← draw (gather n (mk s))
    liftB (updateTargets pend)
  else
    iter n (fun i acc => do
      let s ← get
      let ps ← draw (mk s i)
      let l ← evalSeq ps
      pure (acc ++ l)) []

theorem HJ.lenEq {lo hi : Nat} {G : List (Agent d K X)} {m : M c X Y α} {H : α → List (Agent d K X)} {R : α → Prop} {k : Nat}
    (h : HJ F J k k G m H R) (hk : lo ≤ k ∧ k ≤ hi) : HJ F J lo hi G m H R := HJ.weaken h hk.1 hk.2

theorem HJ.buildEvalL (hE : c.E.Lawful) {n k1 k2 : Nat} {G : List (Agent d K X)} {mk : St c X Y → Nat → D c (List (Vec d K × X))}
    (hmk : ∀ (s : St c X Y) (i : Nat), Mid F J s → s.pop.length = c.popSize → i < n →
      DT noErr (mk s i) (fun l => (k1 ≤ l.length ∧ l.length ≤ k2) ∧ ∀ p ∈ l, MkOk F c p)) :
    HJ F J (n * k1) (n * k2) G (Mealpy.buildEvalL n mk : M c X Y _) (fun new => G ++ new)
      (fun new => (n * k1 ≤ new.length ∧ new.length ≤ n * k2) ∧ ∀ a ∈ new, F a) := by
  unfold Mealpy.buildEvalL
  refine HJ.ite (fun hm => ?_) (fun hm => ?_)
  · refine HJ.bind0 (HJ.ofIT IT.get) fun s hs => HJ.bind0 (HJ.draw (DT.gather fun i hi => hmk s i hs hs.len hi)) fun pend hp => ?_
    refine HJ.lenEq (k := pend.length) ?_ hp.1
    intro s0 s1 l k hs0 hs1
    refine Wp.mono (HJ.updateTargets hE hm hp.2 s0 s1 l k hs0 hs1) fun new s' h => ⟨h.1, ?_, h.2.2⟩
    rw [h.2.1]; exact hp.1
  · have := HJ.iter (F := F) (J := J) (f := fun i (acc : List (Agent d K X)) => (do
      let s ← MonadState.get
      let ps ← Mealpy.draw (mk s i)
      let l ← Mealpy.evalSeq ps
      Pure.pure (acc ++ l) : M c X Y _)) (lo := k1) (hi := k2) (fun new => G ++ new)
      (fun i new => (i * k1 ≤ new.length ∧ new.length ≤ i * k2) ∧ ∀ a ∈ new, F a) n (a := []) (by simp) ?_
    · simpa using this
    · intro i acc hi hacc
      refine HJ.bind0 (HJ.ofIT IT.get) fun s hs => HJ.bind0 (HJ.draw (hmk s i hs hs.len hi)) fun ps hp => ?_
      refine HJ.lenEq (k := ps.length) ?_ hp.1
      refine HJ.bindS (HJ.evalSeq hp.2) (by omega) fun l hl => ?_
      refine HJ.weaken (HJ.pure (by simp) ⟨?_, fun a ha => ?_⟩) (by omega) (by omega)
      · rw [List.length_append, Nat.succ_mul, Nat.succ_mul]; omega
      · rcases List.mem_append.1 ha with h | h
        · exact hacc.2 a h
        · exact hl.2 a h

theorem WT.buildEvalL {I : Inv c X Y} (hE : c.E.Lawful) {n k1 k2 : Nat} {mk : St c X Y → Nat → D c (List (Vec d K × X))}
    (hmk : ∀ (s : St c X Y) (i : Nat), WInv I s → i < n →
      DT Er (mk s i) (fun l => (k1 ≤ l.length ∧ l.length ≤ k2) ∧ ∀ p ∈ l, I.Mk p)) :
    WT Er I (n * k1) (n * k2) (Mealpy.buildEvalL n mk : M c X Y _)
      (fun new => (n * k1 ≤ new.length ∧ new.length ≤ n * k2) ∧ ∀ a ∈ new, I.Ag a) := by
  unfold Mealpy.buildEvalL
  refine WT.ite (fun hm => ?_) (fun hm => ?_)
  · refine WT.bind0 WT.get fun s hs => WT.bind0 (WT.draw (DT.gather fun i hi => hmk s i hs hi)) fun pend hp => ?_
    refine WT.weaken (WT.mono (WT.updateTargets hE hm hp.2) fun l hl => ⟨?_, hl.2⟩) hp.1.1 hp.1.2
    rw [hl.1]; exact hp.1
  · refine WT.iter (fun i (new : List (Agent d K X)) => (i * k1 ≤ new.length ∧ new.length ≤ i * k2) ∧ ∀ a ∈ new, I.Ag a) n (by simp) ?_
    intro i acc hi hacc
    refine WT.bind0 WT.get fun s hs => WT.bind0 (WT.draw (hmk s i hs hi)) fun ps hp => ?_
    refine WT.weaken (lo := ps.length) (hi := ps.length) ?_ hp.1.1 hp.1.2
    refine WT.bindS (WT.evalSeq hp.2) (by omega) fun l hl => ?_
    refine WT.weaken (WT.pure ⟨?_, fun a ha => ?_⟩) (by omega) (by omega)
    · rw [List.length_append, Nat.succ_mul, Nat.succ_mul]; omega
    · rcases List.mem_append.1 ha with h | h
      · exact hacc.2 a h
      · exact hl.2 a h

theorem Framed.buildEvalL {q : Bool} (hE : c.E.Lawful) {n : Nat} {mk : St c X Y → Nat → D c (List (Vec d K × X))} :
    Framed q (Mealpy.buildEvalL n mk : M c X Y _) :=
  .ite (.bind .get fun _ => .bind .draw fun _ => .liftB (.updateTargets hE))
    (.iter fun _ _ => .bind .get fun _ => .bind .draw fun _ => .bind .evalSeq fun _ => .pure)

/-- `n` agents made by `generate_agent(pos)`: evaluated one by one in every mode -/
def spawn (n : Nat) (mkExt : Vec d K → D c X) (mk : Nat → D c (Vec d K)) : M c X Y (List (Agent d K X)) :=
  iter n (fun i acc => do
    let x ← draw (mk i)
    let a ← liftB (agentOf mkExt x)
    pure (acc ++ [a])) []

theorem HJ.spawn {n : Nat} {G : List (Agent d K X)} {mkExt : Vec d K → D c X} {mk : Nat → D c (Vec d K)}
    (hx : ∀ x, Feas c x → DT noErr (mkExt x) (fun e => F ⟨x, c.P.target x, e⟩)) (hmk : ∀ i, i < n → DT noErr (mk i) (Feas c)) :
    HJ F J n n G (Mealpy.spawn n mkExt mk : M c X Y _) (fun new => G ++ new) (fun new => new.length = n ∧ ∀ a ∈ new, F a) := by
  have := HJ.iter (F := F) (J := J) (f := fun i (acc : List (Agent d K X)) => (do
      let x ← Mealpy.draw (mk i)
      let a ← liftB (Mealpy.agentOf mkExt x)
      Pure.pure (acc ++ [a]) : M c X Y _)) (lo := 1) (hi := 1) (fun new => G ++ new)
      (fun i new => new.length = i ∧ ∀ a ∈ new, F a) n (a := []) (by simp) ?_
  · unfold Mealpy.spawn; simpa only [Nat.mul_one, List.append_nil] using this
  · intro i acc hi hacc
    refine HJ.bind0 (HJ.draw (hmk i hi)) fun x hxf => HJ.bindS (HJ.agentOf hxf (hx x hxf)) (by omega) fun a ha => ?_
    refine HJ.weaken (HJ.pure (by simp) ⟨by simp [hacc.1], fun b hb => ?_⟩) (by omega) (by omega)
    rcases List.mem_append.1 hb with h | h
    · exact hacc.2 b h
    · rw [List.mem_singleton.1 h]; exact ha.1

theorem RJ.spawn {n : Nat} {G : List (Agent d K X)} {mkExt : Vec d K → D c X} {mk : Nat → D c (Vec d K)}
    (hx : ∀ x, Feas c x → DT noErr (mkExt x) (fun e => F ⟨x, c.P.target x, e⟩)) (hmk : ∀ i, i < n → DT noErr (mk i) (Feas c)) :
    RJ F J n n G (Mealpy.spawn n mkExt mk : M c X Y _) (fun new => G ++ new) (fun new => new.length = n ∧ ∀ a ∈ new, F a) := by
  have := RJ.iter (F := F) (J := J) (f := fun i (acc : List (Agent d K X)) => (do
      let x ← Mealpy.draw (mk i)
      let a ← liftB (Mealpy.agentOf mkExt x)
      Pure.pure (acc ++ [a]) : M c X Y _)) (lo := 1) (hi := 1) (fun new => G ++ new)
      (fun i new => new.length = i ∧ ∀ a ∈ new, F a) n (a := []) (by simp) ?_
  · unfold Mealpy.spawn; simpa only [Nat.mul_one, List.append_nil] using this
  · intro i acc hi hacc
    refine RJ.bind0 (RJ.draw (hmk i hi)) fun x hxf => ?_
    refine RJ.weaken (RJ.bind (RJ.agentOf hxf (hx x hxf)) fun a ha => ?_) (lo := 1 + 0) (hi := 1 + 0) (by omega) (by omega)
    refine RJ.pure (by simp) ⟨by simp [hacc.1], fun b hb => ?_⟩
    rcases List.mem_append.1 hb with h | h
    · exact hacc.2 b h
    · rw [List.mem_singleton.1 h]; exact ha.1

theorem WT.spawn {I : Inv c X Y} {n : Nat} {mkExt : Vec d K → D c X} {mk : Nat → D c (Vec d K)}
    (hx : ∀ x, I.pos x → DT Er (mkExt x) (fun e => I.Mk (x, e))) (hmk : ∀ i, i < n → DT Er (mk i) I.pos) :
    WT Er I n n (Mealpy.spawn n mkExt mk : M c X Y _) (fun new => new.length = n ∧ ∀ a ∈ new, I.Ag a) := by
  refine WT.iterL 1 1 I.Ag (by omega) (by omega) fun i l hi hl hq => ?_
  refine WT.bind0 (WT.draw (hmk i hi)) fun x hxp => WT.bindS (WT.agentOf hxp (DT.mono (hx x hxp) fun e h => h.2)) (by omega) fun a ha => ?_
  refine WT.weaken (WT.pure ⟨by simp [hl], fun b hb => ?_⟩) (by omega) (by omega)
  rcases List.mem_append.1 hb with h | h
  · exact hq b h
  · rw [List.mem_singleton.1 h]; exact ha.1

theorem Framed.spawn {q : Bool} {n : Nat} {mkExt : Vec d K → D c X} {mk : Nat → D c (Vec d K)} :
    Framed q (Mealpy.spawn n mkExt mk : M c X Y _) := .iter fun _ _ => .bind .draw fun _ => .bind (.liftB .agentOf) fun _ => .pure

/-- read the state and hold some members of the population -/
theorem HJ.getHold {l h : Nat} {G : List (Agent d K X)} {f : St c X Y → M c X Y β} {H : β → List (Agent d K X)} {Q : β → Prop}
    (sel : St c X Y → List (Agent d K X)) (hsel : ∀ s a, a ∈ sel s → a ∈ s.pop)
    (h' : ∀ s, Mid F J s → HJ F J l h (G ++ sel s) (f s) H Q) :
    HJ F J l h G ((MonadState.get : M c X Y _) >>= f) H Q := by
  intro s0 s l k hs0 hs
  refine Wp.bind (Wp.get ?_)
  refine h' s (hs.mid hs0) s0 s l k hs0 ?_
  refine hs.swap (fun a ha => ⟨a, List.mem_append_left _ ha, NoWorse.rfl⟩) fun a ha => ?_
  rcases List.mem_append.1 ha with g | g
  · exact hs.held a g
  · exact ⟨hs.good.ev a (hsel s a g), hs.good.feas a (hsel s a g)⟩

macro_rules
  | `(tactic| dprim) => `(tactic| first
    | (at_head pickPerm; exact DT.pickPerm (by assumption) (by dside))
    | (at_head pickOr; exact DT.pickOr (by assumption) (by dside)))

macro_rules
  | `(tactic| hstep) => `(tactic| first
    | (at_bind spawn; refine HJ.bindS (HJ.spawn (fun x hx => DT.pure hx) (fun i hi => by dgo)) (by omega) (fun _ _ => ?_)))

macro_rules
  | `(tactic| wstep) => `(tactic| first
    | (at_bind spawn; refine WT.bindS (WT.spawn (fun x hx => DT.pure (by dfin)) (fun i hi => by dgo)) (by omega) (fun _ _ => ?_)))

macro_rules
  | `(tactic| fprim) => `(tactic| first
    | (at_last evalAll; exact Framed.evalAll (by assumption))
    | (at_last evalSeq; exact Framed.evalSeq)
    | (at_last buildEvalL; exact Framed.buildEvalL (by assumption))
    | (at_last spawn; exact Framed.spawn))

end Mealpy
