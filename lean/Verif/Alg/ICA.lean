import Verif.Alg.Light
import Verif.Alg.Kit20
import Verif.Alg.Kit19
import Verif.Alg.Kit16

/-!
# Empires

`OriginalICA` (`mealpy/human_based/ICA.py`) keeps agents in three lists of its own, `pop_empires`, `pop_colonies` and the dictionary `empires`;
one agent object may be in several of them, and one array in several agents.  The model keeps the objects in a table and the lists as lists of
positions in that table; agents carry the identity of their array (`Verif.Alg.Alias`).
-/

set_option linter.unusedSectionVars false
set_option linter.unusedVariables false

namespace Mealpy
open Spec

variable {d : Nat} {K : Type} [Num K] {c : Cfg d K} {X Y : Type} {α β : Type} {Er : Err → Prop}

/-- `for a in l: f(a)` -/
def forL : List α → (α → M c X Y Unit) → M c X Y Unit
  | [], _ => pure ()
  | a :: l, f => do
    f a
    forL l f

namespace OriginalICA

/-- the hyper-parameters (`mealpy/human_based/ICA.py:79-86`) -/
structure Params (K : Type) where
  empires : Nat
  beta : K
  prob : K
  rate : K
  step : K
  zeta : K

/-- the agent objects, and the lists of them (`mealpy/human_based/ICA.py:108-109`, `:115`): `emp` is `pop_empires`, `col` is `pop_colonies`.
`next` counts the arrays. -/
structure World (d : Nat) (K : Type) where
  next : Nat
  obj : List (Agent d K Nat)
  emp : List Nat
  col : List Nat
  empires : List (List Nat)

/-- `self.n_revoluted_variables` (`mealpy/human_based/ICA.py:105`) -/
def revoluted (d : Nat) (p : Params K) : Nat := (Num.trunc (Num.ufunc "round" (p.rate * ♯d))).toNat

/-- the normalized costs (`mealpy/human_based/ICA.py:112`, `:178`) -/
def normalized (l : List K) : List K := l.map (fun x => x - (maxL l + minL l))

/-- `[table[o] for o in l]` -/
def lookups (table : List (Agent d K Nat)) : List Nat → D c (List (Agent d K Nat))
  | [] => pure []
  | o :: l => do
    let a ← nth table o
    let as ← lookups table l
    pure (a :: as)

/-- how many colonies empire `i` gets (`mealpy/human_based/ICA.py:112-113`, `:119`).  When the normalized costs add up to 0 the quotient is nan
or infinite, and `int(round(...))` raises. -/
def share (costs : List K) (n i : Nat) : D c Nat := do
  let x ← nth (normalized costs) i
  let total := sumL (normalized costs)
  if total = 0 then dthrow (if x = 0 then .value else .overflow)
  else pure (Num.trunc (Num.ufunc "round" (Num.abs (x / total) * ♯n))).toNat

/-- the colonies of the empires but the last (`mealpy/human_based/ICA.py:115-123`): `idx_already_selected` and the lists of indices.
(python goes through a set in some order.) -/
def divide (costs : List K) (n m : Nat) : D c (List Nat × List (List Nat)) :=
  iter m (fun i (q : List Nat × List (List Nat)) => do
    let k ← share costs n i
    let rest ← inSomeOrder (rangeWithout n q.1)
    let is ← choice rest.length k false
    let l := is.filterMap (fun i => rest[i]?)
    pure (q.1 ++ l, q.2 ++ [l])) ([], [])

/-- `OriginalICA.initialization` (`mealpy/human_based/ICA.py:99-127`): object `i` is the imperialist `i`, object `empire_count + i` the colony
`i`; both hold the arrays of the agents they are copies of.  The colonies of the last empire are copies again. -/
def init (p : Params K) (y : World d K) (q : Option (List (Agent d K Nat))) : B c (List (Agent d K Nat) × World d K) := do
  let r ← defaultInit (fun _ => pure 0) y q
  let pop := (getSorted c.E.argsort (r.1.mapIdx (fun i a => { a with ext := i })) c.P.mm).1
  let n := c.popSize - p.empires
  let q ← liftD (divide ((pop.take p.empires).map Agent.fit) n (p.empires - 1))
  let last ← liftD (inSomeOrder (rangeWithout n q.1))
  let copies ← liftD (lookups pop (last.map (p.empires + ·)))
  pure (pop, {
    next := c.popSize
    obj := pop ++ copies
    emp := List.range p.empires
    col := (List.range n).map (p.empires + ·)
    empires := q.2.map (fun l => l.map (p.empires + ·)) ++ [(List.range copies.length).map (pop.length + ·)] })

/-- the object `o` -/
def obj (o : Nat) : M c Nat (World d K) (Agent d K Nat) := do
  let s ← get
  draw (nth s.ext.obj o)

/-- the objects `l` -/
def objs (l : List Nat) : M c Nat (World d K) (List (Agent d K Nat)) := do
  let s ← get
  draw (lookups s.ext.obj l)

/-- `self.pop_empires[i]` -/
def emp (i : Nat) : M c Nat (World d K) Nat := do
  let s ← get
  draw (nth s.ext.emp i)

/-- the object `o` gets a new array that holds `x`, and a target if there is one -/
def World.put (w : World d K) (o : Nat) (x : Vec d K) (t : Option (Target K)) : World d K :=
  { w with next := w.next + 1, obj := w.obj.modify o (fun a => ⟨x, t.getD a.tgt, w.next⟩) }

/-- every object with the array `r` after `v` has been written into it -/
def World.write (w : World d K) (r : Nat) (v : Vec d K) : World d K := { w with obj := w.obj.map (rewrite r v) }

/-- `agent.solution = x`, and `agent.target = self.get_target(x)` in single mode (`mealpy/human_based/ICA.py:142-144`, `:151-153`,
`:159-161`), after the change `f` -/
def assign (f : World d K → World d K) (o : Nat) (x : Vec d K) : M c Nat (World d K) Unit :=
  if c.swarmLike then modExt (fun w => (f w).put o x none)
  else do
    let t ← liftB (getTarget x)
    modExt (fun w => (f w).put o x (some t))

/-- `self.update_target_for_population(l)` (`mealpy/optimizer.py:392-421`): nothing in single mode; otherwise the objects of the list get the
targets of their positions, one after another -/
def update (l : List Nat) : M c Nat (World d K) Unit :=
  if c.swarmLike then do
    let as ← objs l
    let new ← liftB (updateTargets (as.map (fun a => (a.sol, a.ext))))
    modExt (fun w => { w with obj := (List.zip l new).foldl (fun obj q => obj.modify q.1 (fun a => { a with tgt := q.2.tgt })) w.obj })
  else pure ()

/-- assimilation of one colony (`mealpy/human_based/ICA.py:139-144`) -/
def assimilate (p : Params K) (i o : Nat) : M c Nat (World d K) Unit := do
  let a ← obj o
  let u ← draw (uniformVec (fun _ => 0) (fun _ => 1))
  let e ← emp i
  let b ← obj e
  let x ← draw (correct (fun j => a.sol j + p.beta * u j * (b.sol j - a.sol j)))
  assign id o x

/-- the indices that change (`mealpy/human_based/ICA.py:93-95`) -/
def which (p : Params K) : D c (List Nat) := do
  let is ← choice d (revoluted d p) false
  if is = [] then do
    let j ← index d
    pure [j]
  else pure is

/-- `revolution_country__` and what follows (`mealpy/human_based/ICA.py:91-97`, `:149-153`, `:157-161`): the new coordinates are written into the
agent's own array, uncorrected; the agent then gets the corrected copy.  (The write into the objects' array is part of `assign`.) -/
def revolve (p : Params K) (o : Nat) : M c Nat (World d K) Unit := do
  let a ← obj o
  let z ← draw (normalVec 0 1)
  let is ← draw (which p)
  let v : Vec d K := fun j => if j.val ∈ is then a.sol j + p.step * z j else a.sol j
  poke a.ext v
  let x ← draw (correct v)
  assign (fun w => w.write a.ext v) o x

/-- assimilation (`mealpy/human_based/ICA.py:137-145`) -/
def assimilation (p : Params K) : M c Nat (World d K) Unit := do
  let s ← get
  forL s.ext.empires.zipIdx (fun q => do
    forL q.1 (assimilate p q.2)
    update q.1)

/-- revolution (`mealpy/human_based/ICA.py:147-163`) -/
def revolution (p : Params K) : M c Nat (World d K) Unit := do
  let s ← get
  forL s.ext.empires.zipIdx (fun q => do
    let e ← emp q.2
    revolve p e
    forL q.1 (fun o => do
      let u ← draw random
      if u < p.prob then revolve p o else pure ())
    update q.1)
  let s ← get
  update s.ext.emp

/-- the imperialist `b` of empire `i` and its colony `a` in place `k` change places; both are copied (`mealpy/human_based/ICA.py:169`) -/
def World.swap (w : World d K) (i k : Nat) (a b : Agent d K Nat) : World d K :=
  { w with
    obj := w.obj ++ [b, a]
    empires := w.empires.modify i (fun l => l.set k w.obj.length)
    emp := w.emp.set i (w.obj.length + 1) }

/-- one colony against its imperialist (`mealpy/human_based/ICA.py:168-169`) -/
def challenge (i k : Nat) : M c Nat (World d K) Unit := do
  let s ← get
  let l ← draw (nth s.ext.empires i)
  let o ← draw (nth l k)
  let a ← obj o
  let e ← emp i
  let b ← obj e
  if compareTarget a.tgt b.tgt c.P.mm then modExt (fun w => w.swap i k a b) else pure ()

/-- intra-empire competition (`mealpy/human_based/ICA.py:166-169`) -/
def competition : M c Nat (World d K) Unit := do
  let s ← get
  forL s.ext.empires.zipIdx (fun q => forL (List.range q.1.length) (challenge q.2))

/-- the total cost of an empire (`mealpy/human_based/ICA.py:173-174`); `none`: the mean over no colonies, nan -/
def cost (p : Params K) (l : List Nat) (i : Nat) : M c Nat (World d K) (Option K) := do
  let as ← objs l
  let e ← emp i
  let b ← obj e
  pure (if l = [] then none else some (b.fit + p.zeta * meanL (as.map Agent.fit)))

/-- the costs of the empires (`mealpy/human_based/ICA.py:171-176`) -/
def costs (p : Params K) : M c Nat (World d K) (List (Option K)) := do
  let s ← get
  iter s.ext.empires.length (fun i acc => do
    let l ← draw (nth s.ext.empires i)
    let x ← cost p l i
    pure (acc ++ [x])) []

/-- `idx_empire` and `idx_weakest_empire` (`mealpy/human_based/ICA.py:178-184`).  With a nan among the costs, `np.max` is nan and so are all the
probabilities; `np.argmax` returns the first nan.  With a sum of 0 the quotients are nan (for 0) or infinite. -/
def rivals (l : List (Option K)) (u : List K) : Nat × Nat :=
  if l.any Option.isNone then (0, l.findIdx Option.isNone)
  else
    let cs := l.filterMap id
    let ns := normalized cs
    let total := sumL ns
    (if total = 0 then (if ns.any (fun x => decide (x = 0)) then ns.findIdx (fun x => decide (x = 0)) else 0)
      else argmaxL (List.zipWith (fun x r => Num.abs (x / total) - r) ns u),
    argmaxL cs)

/-- the weakest empire loses a colony, or its imperialist when it has no colony (`mealpy/human_based/ICA.py:185-189`).  The colony stays in its
old empire as well: `colonies_sorted` is a new list. -/
def transfer (strong weak : Nat) : M c Nat (World d K) Unit := do
  let s ← get
  let l ← draw (nth s.ext.empires weak)
  if l ≠ [] then do
    let as ← objs l
    let o ← draw (match ((getSorted c.E.argsort as c.P.mm).2.getLast?).bind (fun k => l[k]?) with
      | some o => pure o
      | none => dthrow .index)
    modExt (fun w => { w with empires := w.empires.modify strong (fun l => l ++ [o]) })
  else do
    let e ← emp weak
    modExt (fun w => { w with emp := w.emp.eraseIdx weak, empires := w.empires.modify strong (fun l => l ++ [e]) })

/-- `self.pop = self.pop_empires + self.pop_colonies` (`mealpy/human_based/ICA.py:191`) -/
def gather : M c Nat (World d K) Unit := do
  let s ← get
  let l ← objs (s.ext.emp ++ s.ext.col)
  setPop l

/-- `OriginalICA.evolve` (`mealpy/human_based/ICA.py:129-191`) -/
def evolve (p : Params K) (ep : Nat) : M c Nat (World d K) Unit := do
  assimilation p
  revolution p
  let s ← get
  let es ← objs s.ext.emp
  let _ ← updateGlobalBestNoSave es
  competition
  let cs ← costs p
  let u ← draw (iter cs.length (fun _ acc => do
    let x ← uniform 0 1
    pure (acc ++ [x])) [])
  let (strong, weak) := rivals cs u
  transfer strong weak
  gather

/-- `OriginalICA` (`mealpy/human_based/ICA.py:13-191`).  (Populations saved in the history are shown as they were at the end of their epoch, up
to writes into their arrays.) -/
def algo (p : Params K) : Algo c Nat (World d K) where
  sortFlag := true
  mkExt := fun _ => pure 0
  initVars := pure ⟨0, [], [], [], []⟩
  initialization := init p
  beforeMain := pure ()
  evolve := evolve p

/-! ### Proofs -/

end OriginalICA

/-! ## Code that changes the attributes in a controlled way -/

/-- code that leads from attributes in `P` to attributes in `Q` -/
def LH (Er : Err → Prop) (I : LInv d K Y) (P : Y → Prop) (lo hi : Nat) (m : M c X Y α) (Q : α → Y → Prop) : Prop :=
  ∀ s, LHolds { I with attr := P } s → Wp Er m s (fun a s' => LStep { I with attr := Q a } lo hi s s')

namespace LH

variable {I : LInv d K Y} {P : Y → Prop}

theorem trans {P Q : Y → Prop} {l1 h1 l2 h2 : Nat} {s s' s'' : St c X Y} (h : LStep { I with attr := P } l1 h1 s s')
    (h' : LStep { I with attr := Q } l2 h2 s' s'') : LStep { I with attr := Q } (l1 + l2) (h1 + h2) s s'' := by
  obtain ⟨n1, a1, a2, a3, a4⟩ := h.evals
  obtain ⟨n2, b1, b2, b3, b4⟩ := h'.evals
  refine ⟨h'.inv, ⟨n1 ++ n2, by rw [b1, a1, List.append_assoc], by simp; omega, by simp; omega, ?_⟩, h'.diversity.trans h.diversity,
    h'.population.trans h.population⟩
  intro x hx
  rcases List.mem_append.1 hx with hx | hx
  · exact a4 x hx
  · exact b4 x hx

theorem attr {P Q : Y → Prop} {s : St c X Y} (h : LHolds { I with attr := P } s) (hq : Q s.ext) : LHolds { I with attr := Q } s :=
  ⟨h.len, hq, h.gbest, h.worst, h.cbest, h.cworst⟩

theorem attrS {P Q : Y → Prop} {lo hi : Nat} {s s' : St c X Y} (h : LStep { I with attr := P } lo hi s s') (hq : Q s'.ext) :
    LStep { I with attr := Q } lo hi s s' := ⟨attr h.inv hq, h.evals, h.diversity, h.population⟩

theorem pure {a : α} {Q : α → Y → Prop} (h : ∀ y, P y → Q a y) : LH Er I P 0 0 (Pure.pure a : M c X Y α) Q :=
  fun s hs => Wp.pure (attrS (.refl hs) (h _ hs.ext))

theorem conseq {P' : Y → Prop} {lo hi lo' hi' : Nat} {m : M c X Y α} {Q Q' : α → Y → Prop} (h : LH Er I P' lo' hi' m Q') (hp : ∀ y, P y → P' y)
    (hq : ∀ a y, Q' a y → Q a y) (h1 : lo ≤ lo') (h2 : hi' ≤ hi) : LH Er I P lo hi m Q :=
  fun s hs => Wp.mono (h s (attr hs (hp _ hs.ext))) fun a s' h => attrS (h.weaken h1 h2) (hq a _ h.inv.ext)

theorem weaken {lo hi lo' hi' : Nat} {m : M c X Y α} {Q : α → Y → Prop} (h : LH Er I P lo' hi' m Q) (h1 : lo ≤ lo') (h2 : hi' ≤ hi) :
    LH Er I P lo hi m Q := h.conseq (fun _ h => h) (fun _ _ h => h) h1 h2

theorem bind {l1 h1 l2 h2 : Nat} {m : M c X Y α} {f : α → M c X Y β} {R : α → Y → Prop} {Q : β → Y → Prop}
    (h : LH Er I P l1 h1 m R) (h' : ∀ a, LH Er I (R a) l2 h2 (f a) Q) : LH Er I P (l1 + l2) (h1 + h2) (m >>= f) Q := by
  intro s hs
  refine Wp.bind (Wp.mono (h s hs) fun a s' g1 => ?_)
  exact Wp.mono (h' a s' g1.inv) fun b s'' g2 => trans g1 g2

theorem bind0 {l h : Nat} {m : M c X Y α} {f : α → M c X Y β} {R : α → Y → Prop} {Q : β → Y → Prop}
    (hm : LH Er I P 0 0 m R) (h' : ∀ a, LH Er I (R a) l h (f a) Q) : LH Er I P l h (m >>= f) Q := by
  have := LH.bind hm h'
  rwa [Nat.zero_add, Nat.zero_add] at this

/-- what holds of the attributes may be used -/
theorem know {R : Prop} {lo hi : Nat} {m : M c X Y α} {Q : α → Y → Prop} (h : ∀ y, P y → R) (h' : R → LH Er I P lo hi m Q) :
    LH Er I P lo hi m Q := fun s hs => h' (h _ hs.ext) s hs

theorem get {lo hi : Nat} {f : St c X Y → M c X Y β} {Q : β → Y → Prop} (h : ∀ s : St c X Y, P s.ext → LH Er I (fun y => y = s.ext) lo hi (f s) Q) :
    LH Er I P lo hi (MonadState.get >>= f) Q := by
  intro s hs
  exact Wp.bind (Wp.get (h s hs.ext s (attr hs rfl)))

theorem draw {m : D c α} {R : α → Prop} {lo hi : Nat} {f : α → M c X Y β} {Q : β → Y → Prop} (h : DT Er m R)
    (h' : ∀ a, R a → LH Er I P lo hi (f a) Q) : LH Er I P lo hi (Mealpy.draw m >>= f) Q := by
  intro s hs
  refine Wp.bind (Wp.draw h fun a r v hR => ?_)
  refine Wp.mono (h' a hR _ (hs.base _)) fun b s' g => ?_
  exact ⟨g.inv, g.evals, g.diversity, g.population⟩

theorem ite {p : Prop} [Decidable p] {lo hi : Nat} {m n : M c X Y α} {Q : α → Y → Prop}
    (h : p → LH Er I P lo hi m Q) (h' : ¬ p → LH Er I P lo hi n Q) : LH Er I P lo hi (if p then m else n) Q :=
  fun s hs => Wp.ite (fun hp => h hp s hs) (fun hp => h' hp s hs)

theorem modExt {f : Y → Y} {Q : Unit → Y → Prop} (h : ∀ y, P y → Q () (f y)) : LH Er I P 0 0 (Mealpy.modExt f : M c X Y Unit) Q :=
  fun s hs => Wp.modify ⟨⟨hs.len, h _ hs.ext, hs.gbest, hs.worst, hs.cbest, hs.cworst⟩, .refl rfl, rfl, rfl⟩

theorem ofLT {lo hi : Nat} {m : M c X Y α} {R : α → Prop} (h : LT Er { I with attr := P } lo hi m R) :
    LH Er I P lo hi m (fun a y => R a ∧ P y) :=
  fun s hs => Wp.mono (h s hs) fun a s' h => attrS h.1 ⟨h.2, h.1.inv.ext⟩

theorem forL {f : α → M c X Y Unit} {k1 k2 : α → Nat} (R : List α → Y → Prop) : ∀ (l pre : List α),
    (∀ pre' a post, pre ++ l = pre' ++ a :: post → LH Er I (R pre') (k1 a) (k2 a) (f a) (fun _ => R (pre' ++ [a]))) →
    LH Er I (R pre) (l.map k1).sum (l.map k2).sum (Mealpy.forL l f) (fun _ => R (pre ++ l))
  | [], pre, _ => by
    rw [List.append_nil]
    exact LH.pure fun _ h => h
  | a :: l, pre, hf => by
    have h1 := hf pre a l rfl
    have h2 := LH.forL R l (pre ++ [a]) (fun pre' b post he => hf pre' b post (by rw [← he]; simp))
    rw [List.append_assoc, List.singleton_append] at h2
    exact LH.bind h1 fun _ => h2

theorem iter {f : Nat → α → M c X Y α} {lo hi : Nat} (R : Nat → α → Y → Prop) {a : α} : ∀ (n : Nat),
    (∀ (i : Nat) (a : α), i < n → LH Er I (R i a) lo hi (f i a) (R (i + 1))) →
    LH Er I (R 0 a) (n * lo) (n * hi) (Mealpy.iter n f a) (R n)
  | 0, _ => by
    rw [Nat.zero_mul, Nat.zero_mul]
    exact LH.pure fun _ h => h
  | n + 1, hf => by
    have := LH.bind (LH.iter (a := a) R n (fun i a hi => hf i a (by omega))) (fun a => hf n a (by omega))
    rw [Nat.succ_mul, Nat.succ_mul]
    exact this

end LH

namespace OriginalICA

/-! ## Proofs -/

/-- the exceptions of the class: `ValueError` and `OverflowError` in the division of the colonies, `IndexError` after an empire is gone -/
abbrev errors : List Err := [.value, .overflow, .index]

variable {Q : β → World d K → Prop} {P : World d K → Prop} {I : LInv d K (World d K)} {lo hi : Nat}

theorem dt_nth {l : List α} {i : Nat} : DT (only errors) (nth l i : D c α) (fun a => l[i]? = some a) := by
  unfold nth
  cases h : l[i]? with
  | some a => exact DT.pure rfl
  | none => exact DT.throw (by simp [only, errors])

theorem dt_lookups {t : List (Agent d K Nat)} : ∀ l : List Nat, DT (only errors) (lookups t l : D c _)
    (fun r => r.length = l.length ∧ ∀ a ∈ r, ∃ o ∈ l, t[o]? = some a)
  | [] => DT.pure ⟨rfl, by simp⟩
  | o :: l => by
    unfold lookups
    refine DT.bind dt_nth fun a ha => DT.bind (dt_lookups l) fun r hr => DT.pure ⟨by simp [hr.1], fun b hb => ?_⟩
    rcases List.mem_cons.1 hb with rfl | hb
    · exact ⟨o, by simp, ha⟩
    · obtain ⟨o', h1, h2⟩ := hr.2 b hb
      exact ⟨o', by simp [h1], h2⟩

theorem lh_obj {o : Nat} {f : Agent d K Nat → M c Nat (World d K) β}
    (h : ∀ a, LH (only errors) I (fun y => P y ∧ y.obj[o]? = some a) lo hi (f a) Q) : LH (only errors) I P lo hi (obj o >>= f) Q := by
  have : LH (only errors) I P 0 0 (obj o : M c Nat (World d K) _) (fun a y => P y ∧ y.obj[o]? = some a) := by
    intro s hs
    refine Wp.bind (Wp.get (Wp.draw dt_nth fun a r v ha => ?_))
    exact LH.attrS (.base hs (.refl rfl)) ⟨hs.ext, ha⟩
  exact LH.bind0 this h

theorem lh_emp {i : Nat} {f : Nat → M c Nat (World d K) β}
    (h : ∀ e, LH (only errors) I (fun y => P y ∧ y.emp[i]? = some e) lo hi (f e) Q) : LH (only errors) I P lo hi (emp i >>= f) Q := by
  have : LH (only errors) I P 0 0 (emp i : M c Nat (World d K) _) (fun a y => P y ∧ y.emp[i]? = some a) := by
    intro s hs
    refine Wp.bind (Wp.get (Wp.draw dt_nth fun a r v ha => ?_))
    exact LH.attrS (.base hs (.refl rfl)) ⟨hs.ext, ha⟩
  exact LH.bind0 this h

theorem lh_objs {l : List Nat} {f : List (Agent d K Nat) → M c Nat (World d K) β}
    (h : ∀ as, as.length = l.length → LH (only errors) I (fun y => P y ∧ ∀ a ∈ as, ∃ o ∈ l, y.obj[o]? = some a) lo hi (f as) Q) :
    LH (only errors) I P lo hi (objs l >>= f) Q := by
  have : LH (only errors) I P 0 0 (objs l : M c Nat (World d K) _)
      (fun as y => P y ∧ as.length = l.length ∧ ∀ a ∈ as, ∃ o ∈ l, y.obj[o]? = some a) := by
    intro s hs
    refine Wp.bind (Wp.get (Wp.draw (dt_lookups l) fun a r v ha => ?_))
    exact LH.attrS (.base hs (.refl rfl)) ⟨hs.ext, ha⟩
  refine LH.bind0 this fun as => LH.know (R := as.length = l.length) (fun y h => h.2.1) fun hl => ?_
  exact LH.conseq (h as hl) (fun y h => ⟨h.1, h.2.2⟩) (fun _ _ h => h) (by omega) (by omega)

/-- arrays are counted -/
def Counted (y : World d K) : Prop := ∀ (o : Nat) a, y.obj[o]? = some a → a.ext < y.next

/-- the objects in `D` are in the box, and no other object holds their arrays -/
structure Own (c : Cfg d K) (D : Nat → Prop) (y : World d K) : Prop where
  counted : Counted y
  own : ∀ o, D o → ∃ a, y.obj[o]? = some a ∧ Feas c a.sol ∧ ∀ (o' : Nat) a', y.obj[o']? = some a' → a'.ext = a.ext → o' = o

theorem Own.sub {D D' : Nat → Prop} {y : World d K} (h : Own c D y) (hs : ∀ o, D' o → D o) : Own c D' y := ⟨h.counted, fun o ho => h.own o (hs o ho)⟩

/-- the position and the array of an object -/
def sig (a : Agent d K Nat) : Vec d K × Nat := (a.sol, a.ext)

theorem sig_some {l l' : List (Agent d K Nat)} {o : Nat} {a : Agent d K Nat} (h : l'[o]?.map sig = l[o]?.map sig) (ha : l'[o]? = some a) :
    ∃ b, l[o]? = some b ∧ b.sol = a.sol ∧ b.ext = a.ext := by
  rw [ha] at h
  cases hb : l[o]? with
  | none => rw [hb] at h; simp at h
  | some b =>
    rw [hb] at h
    simp only [Option.map_some, Option.some.injEq, sig, Prod.mk.injEq] at h
    exact ⟨b, rfl, h.1.symm, h.2.symm⟩

theorem Own.congr {D : Nat → Prop} {y y' : World d K} (h : Own c D y) (hn : y'.next = y.next)
    (ho : ∀ o : Nat, y'.obj[o]?.map sig = y.obj[o]?.map sig) : Own c D y' := by
  refine ⟨fun o a ha => ?_, fun o hD => ?_⟩
  · obtain ⟨b, h1, h2, h3⟩ := sig_some (ho o) ha
    have := h.counted o b h1
    omega
  · obtain ⟨a, h1, h2, h3⟩ := h.own o hD
    obtain ⟨b, g1, g2, g3⟩ := sig_some (ho o).symm h1
    refine ⟨b, g1, by rw [g2]; exact h2, fun o' a' ha' he => ?_⟩
    obtain ⟨b', k1, k2, k3⟩ := sig_some (ho o') ha'
    exact h3 o' b' k1 (by omega)

/-- an object gets a new array, others keep theirs; those in `D` keep the contents as well -/
theorem Own.put {D : Nat → Prop} {y y' : World d K} {o : Nat} {x : Vec d K} {t : Option (Target K)} {a : Agent d K Nat} (h : Own c D y)
    (ha : y.obj[o]? = some a) (hx : Feas c x) (hn : y'.next = y.next) (he : ∀ o' : Nat, y'.obj[o']?.map Agent.ext = y.obj[o']?.map Agent.ext)
    (hk : ∀ o', D o' → o' ≠ o → y'.obj[o']? = y.obj[o']?) : Own c (fun o' => o' = o ∨ D o') (y'.put o x t) := by
  have hext : ∀ (o' : Nat) b, y'.obj[o']? = some b → ∃ b', y.obj[o']? = some b' ∧ b'.ext = b.ext := by
    intro o' b hb
    have := he o'
    rw [hb] at this
    cases hb' : y.obj[o']? with
    | none => rw [hb'] at this; simp at this
    | some b' =>
      rw [hb'] at this
      simp only [Option.map_some, Option.some.injEq] at this
      exact ⟨b', rfl, this.symm⟩
  have hlt : ∀ (o' : Nat) b, y'.obj[o']? = some b → b.ext < y'.next := by
    intro o' b hb
    obtain ⟨b', h1, h2⟩ := hext o' b hb
    have := h.counted o' b' h1
    omega
  have hput : ∀ o' : Nat, (y'.put o x t).obj[o']? = (y'.obj[o']?).map (fun b => if o = o' then ⟨x, t.getD b.tgt, y'.next⟩ else b) := by
    intro o'
    show (y'.obj.modify o _)[o']? = _
    rw [List.getElem?_modify]
    rfl
  have hcase : ∀ (o' : Nat) b, (y'.put o x t).obj[o']? = some b → (o' = o ∧ b.ext = y'.next ∧ b.sol = x) ∨ (o' ≠ o ∧ y'.obj[o']? = some b) := by
    intro o' b hb
    rw [hput, Option.map_eq_some_iff] at hb
    obtain ⟨b', h1, h2⟩ := hb
    by_cases ho : o = o'
    · rw [if_pos ho] at h2
      subst h2
      exact .inl ⟨ho.symm, rfl, rfl⟩
    · rw [if_neg ho] at h2
      subst h2
      exact .inr ⟨fun h => ho h.symm, h1⟩
  refine ⟨fun o' b hb => ?_, fun o' hD => ?_⟩
  · show b.ext < y'.next + 1
    rcases hcase o' b hb with ⟨-, h1, -⟩ | ⟨-, h1⟩
    · omega
    · have := hlt o' b h1
      omega
  · by_cases ho : o' = o
    · subst ho
      have : y'.obj[o']?.isSome := by
        have := he o'
        rw [ha] at this
        cases hb : y'.obj[o']? with
        | none => rw [hb] at this; simp at this
        | some b => rfl
      obtain ⟨b, hb⟩ := Option.isSome_iff_exists.1 this
      refine ⟨⟨x, t.getD b.tgt, y'.next⟩, by rw [hput, hb]; simp, hx, fun o2 a2 h2 he2 => ?_⟩
      rcases hcase o2 a2 h2 with ⟨h1, -, -⟩ | ⟨-, h1⟩
      · exact h1
      · have := hlt o2 a2 h1
        have : a2.ext = y'.next := he2
        omega
    · have hD : D o' := hD.resolve_left ho
      obtain ⟨b, h1, h2, h3⟩ := h.own o' hD
      have hb : y'.obj[o']? = some b := by rw [hk o' hD ho]; exact h1
      refine ⟨b, by rw [hput, hb, Option.map_some, if_neg fun h => ho h.symm], h2, fun o2 a2 g2 he2 => ?_⟩
      rcases hcase o2 a2 g2 with ⟨-, g1, -⟩ | ⟨-, g1⟩
      · have := hlt o' b hb
        omega
      · obtain ⟨b', k1, k2⟩ := hext o2 a2 g1
        exact h3 o2 b' k1 (by omega)

theorem Own.write {D : Nat → Prop} {y : World d K} {o : Nat} {x v : Vec d K} {t : Option (Target K)} {a : Agent d K Nat} (h : Own c D y)
    (ha : y.obj[o]? = some a) (hx : Feas c x) : Own c (fun o' => o' = o ∨ D o') ((y.write a.ext v).put o x t) := by
  have hw : ∀ o' : Nat, (y.write a.ext v).obj[o']? = (y.obj[o']?).map (rewrite a.ext v) := fun o' => by
    show (y.obj.map _)[o']? = _
    rw [List.getElem?_map]
  refine h.put ha hx rfl (fun o' => ?_) fun o' hD ho => ?_
  · rw [hw, Option.map_map]
    congr 1
    funext b
    show (rewrite a.ext v b).ext = b.ext
    unfold rewrite
    split <;> rfl
  · obtain ⟨b, h1, -, h3⟩ := h.own o' hD
    rw [hw, h1, Option.map_some]
    unfold rewrite
    rw [if_neg]
    intro he
    exact ho (h3 o a ha he.symm).symm

/-- the lists of objects are those of `w` -/
structure Same (w y : World d K) : Prop where
  empires : y.empires = w.empires
  emp : y.emp = w.emp
  col : y.col = w.col

/-- one evaluation in single mode, none otherwise -/
abbrev one (c : Cfg d K) : Nat := if c.swarmLike = true then 0 else 1

/-- no evaluation in single mode, one each otherwise -/
abbrev each (c : Cfg d K) (n : Nat) : Nat := if c.swarmLike = true then n else 0

/-- the invariant of this class: feasible evaluations, `pop_size` agents or one less -/
abbrev inv (c : Cfg d K) : LInv d K (World d K) := ⟨Feas c, fun n => n = c.popSize ∨ n + 1 = c.popSize, fun _ => True⟩

theorem lh_assign {f : World d K → World d K} {o : Nat} {x : Vec d K} {R : World d K → Prop} (hx : Feas c x)
    (h : ∀ y t, P y → R ((f y).put o x t)) :
    LH (only errors) (inv c) P (one c) (one c) (assign f o x : M c Nat (World d K) Unit) (fun _ => R) := by
  unfold assign one
  by_cases hm : c.swarmLike = true
  · rw [if_pos hm, if_pos hm]
    exact LH.modExt fun y hy => h y _ hy
  · rw [if_neg hm, if_neg hm]
    refine LH.bind (l2 := 0) (h2 := 0) (LH.ofLT (LT.getTarget hx)) fun t => LH.modExt fun y hy => h y _ hy.2

theorem zip_sig : ∀ (l : List (Nat × Agent d K Nat)) (obj : List (Agent d K Nat)) (o : Nat),
    (l.foldl (fun obj q => obj.modify q.1 (fun a => { a with tgt := q.2.tgt })) obj)[o]?.map sig = obj[o]?.map sig
  | [], obj, o => rfl
  | q :: l, obj, o => by
    rw [List.foldl_cons, zip_sig l]
    rw [List.getElem?_modify]
    cases obj[o]? with
    | none => rfl
    | some a =>
      simp only [Option.map_some, Option.map_eq_map]
      congr 1
      split <;> rfl

theorem lh_update (hE : c.E.Lawful) {w : World d K} {D : Nat → Prop} {l : List Nat} (hl : ∀ o ∈ l, D o) :
    LH (only errors) (inv c) (fun y => Same w y ∧ Own c D y) (each c l.length) (each c l.length) (update l : M c Nat (World d K) Unit)
      (fun _ y => Same w y ∧ Own c D y) := by
  unfold update each
  by_cases hm : c.swarmLike = true
  · rw [if_pos hm, if_pos hm]
    refine lh_objs fun as has => ?_
    refine LH.know (R := ∀ a ∈ as, Feas c a.sol) (fun y h a ha => ?_) fun hF => ?_
    · obtain ⟨o, ho, hoa⟩ := h.2 a ha
      obtain ⟨b, h1, h2, -⟩ := h.1.2.own o (hl o ho)
      rw [h1] at hoa
      injection hoa with hoa
      rw [← hoa]; exact h2
    have hu := LT.updateTargets (Er := only errors) (I := { inv c with attr := fun y => (Same w y ∧ Own c D y) ∧ ∀ a ∈ as, ∃ o ∈ l, y.obj[o]? = some a })
      hE hm (pend := as.map (fun a => (a.sol, a.ext))) (by
        intro q hq
        obtain ⟨a, ha, rfl⟩ := List.mem_map.1 hq
        exact hF a ha)
    rw [List.length_map, has] at hu
    refine LH.bind (l2 := 0) (h2 := 0) (LH.ofLT hu) fun new => LH.modExt fun y hy => ?_
    obtain ⟨-, ⟨hs, ho⟩, -⟩ := hy
    exact ⟨⟨hs.empires, hs.emp, hs.col⟩, ho.congr rfl fun o => zip_sig _ _ _⟩
  · rw [if_neg hm, if_neg hm]
    exact LH.pure fun _ h => h

theorem lh_assimilate (hE : c.E.Lawful) (hP : c.P.Lawful) (p : Params K) {w : World d K} {D : Nat → Prop} {i o : Nat} :
    LH (only errors) (inv c) (fun y => Same w y ∧ Own c D y) (one c) (one c) (assimilate p i o : M c Nat (World d K) Unit)
      (fun _ y => Same w y ∧ Own c (fun o' => o' = o ∨ D o') y) := by
  unfold assimilate
  refine lh_obj fun a => LH.draw (R := fun _ => True) (by dprim) fun u _ => lh_emp fun e => lh_obj fun b => LH.draw (DT.correct hP) fun x hx => ?_
  refine lh_assign hx fun y t hy => ?_
  obtain ⟨⟨⟨⟨hs, ho⟩, ha⟩, -⟩, -⟩ := hy
  exact ⟨⟨hs.empires, hs.emp, hs.col⟩, ho.put ha hx rfl (fun _ => rfl) fun _ _ _ => rfl⟩

theorem lh_revolve (hE : c.E.Lawful) (hP : c.P.Lawful) (p : Params K) {w : World d K} {W : Nat → Prop} {o : Nat} :
    LH (only errors) (inv c) (fun y => Same w y ∧ Own c W y) (one c) (one c) (revolve p o : M c Nat (World d K) Unit)
      (fun _ y => Same w y ∧ Own c (fun o' => o' = o ∨ W o') y) := by
  unfold revolve
  have hwhich : DT (only errors) (which p : D c (List Nat)) (fun _ => True) := by
    unfold which
    refine DT.bind (DT.choice_err hE (by simp [only, errors])) fun is _ => DT.ite (fun _ => ?_) fun _ => DT.pure trivial
    refine DT.bind (R := fun _ => True) ?_ fun _ _ => DT.pure trivial
    unfold index integers
    split
    · exact DT.bind (R := fun _ => True) (DT.rngCall fun s => trivial) fun _ _ => DT.pure trivial
    · exact DT.bind (R := fun _ => True) (DT.throw (by simp [only, errors])) fun _ _ => DT.pure trivial
  refine lh_obj fun a => LH.draw (R := fun _ => True) (by dprim) fun z _ => LH.draw hwhich fun is _ => ?_
  dsimp only
  refine LH.bind0 (LH.ofLT LT.poke) fun _ => LH.draw (DT.correct hP) fun x hx => ?_
  refine lh_assign hx fun y t hy => ?_
  obtain ⟨-, ⟨hs, ho⟩, ha⟩ := hy
  exact ⟨⟨hs.empires, hs.emp, hs.col⟩, ho.write ha hx⟩

/-- the number of colonies, counted once per empire they are in -/
def World.total (w : World d K) : Nat := (w.empires.map List.length).sum

theorem sum_zip (l : List (List Nat)) (f : Nat → Nat) : (l.zipIdx.map (fun q => f q.1.length)).sum = (l.map (fun a => f a.length)).sum := by
  have : l.zipIdx.map (fun q => f q.1.length) = (l.zipIdx.map Prod.fst).map (fun a => f a.length) := by rw [List.map_map]; rfl
  rw [this, List.zipIdx_map_fst]

theorem sum_const {α : Type} (k : Nat) : ∀ l : List α, (l.map (fun _ => k)).sum = l.length * k
  | [] => by simp
  | a :: l => by rw [List.map_cons, List.sum_cons, sum_const k l, List.length_cons, Nat.succ_mul]; omega

theorem lh_assimilation (hE : c.E.Lawful) (hP : c.P.Lawful) (p : Params K) {w : World d K} (hw : Counted w) :
    LH (only errors) (inv c) (fun y => y = w) w.total w.total (assimilation p : M c Nat (World d K) Unit)
      (fun _ y => Same w y ∧ Own c (fun o => ∃ l ∈ w.empires, o ∈ l) y) := by
  unfold assimilation
  refine LH.get fun s hs => ?_
  subst hs
  have h := LH.forL (Er := only errors) (I := inv c) (c := c) (f := fun q : List Nat × Nat => do
      forL q.1 (assimilate p q.2)
      update q.1) (k1 := fun q => q.1.length) (k2 := fun q => q.1.length)
    (fun pre y => Same s.ext y ∧ Own c (fun o => ∃ q ∈ pre, o ∈ q.1) y) s.ext.empires.zipIdx [] ?_
  · rw [sum_zip s.ext.empires (fun n => n)] at h
    refine LH.conseq h (fun y hy => ?_) (fun _ y hy => ⟨hy.1, hy.2.sub ?_⟩) (Nat.le_refl _) (Nat.le_refl _)
    · subst hy
      exact ⟨⟨rfl, rfl, rfl⟩, ⟨hw, by simp⟩⟩
    · rintro o ⟨l, hl, ho⟩
      obtain ⟨i, hi, rfl⟩ := List.mem_iff_getElem.1 hl
      exact ⟨(s.ext.empires[i], i), by simp [List.mem_zipIdx_iff_getElem?], ho⟩
  · rintro pre ⟨l, i⟩ post -
    dsimp only
    have h1 := LH.forL (Er := only errors) (I := inv c) (c := c) (f := assimilate p i) (k1 := fun _ => one c) (k2 := fun _ => one c)
      (fun pre' y => Same s.ext y ∧ Own c (fun o => o ∈ pre' ∨ ∃ q ∈ pre, o ∈ q.1) y) l [] ?_
    · have h2 := lh_update (c := c) hE (w := s.ext) (D := fun o => o ∈ l ∨ ∃ q ∈ pre, o ∈ q.1) (l := l) (fun o ho => .inl ho)
      refine LH.conseq (LH.bind h1 fun _ => h2) (fun y hy => ⟨hy.1, hy.2.sub ?_⟩) (fun _ y hy => ⟨hy.1, hy.2.sub ?_⟩) ?_ ?_
      · rintro o (ho | ho)
        · cases ho
        · exact ho
      · rintro o ⟨q, hq, ho⟩
        rcases List.mem_append.1 hq with hq | hq
        · exact .inr ⟨q, hq, ho⟩
        · rw [List.mem_singleton.1 hq] at ho
          exact .inl ho
      · rw [sum_const]; unfold one each; split <;> simp
      · rw [sum_const]; unfold one each; split <;> simp
    · intro pre' o post' _
      refine LH.conseq (lh_assimilate hE hP p (i := i) (o := o)) (fun y hy => hy) (fun _ y hy => ⟨hy.1, hy.2.sub ?_⟩) (Nat.le_refl _) (Nat.le_refl _)
      rintro o' (ho | ho)
      · rcases List.mem_append.1 ho with ho | ho
        · exact .inr (.inl ho)
        · exact .inl (List.mem_singleton.1 ho)
      · exact .inr (.inr ho)

theorem lh_revolution (hE : c.E.Lawful) (hP : c.P.Lawful) (p : Params K) {w : World d K} (hl : w.emp.length ≤ w.empires.length) :
    LH (only errors) (inv c) (fun y => Same w y ∧ Own c (fun o => ∃ l ∈ w.empires, o ∈ l) y) (if c.swarmLike = true then w.total else w.empires.length)
      (w.total + w.empires.length) (revolution p : M c Nat (World d K) Unit) (fun _ y => Same w y ∧ Counted y ∧ w.empires.length ≤ w.emp.length) := by
  unfold revolution
  refine LH.get fun s hs => ?_
  obtain ⟨hs, hown⟩ := hs
  rw [hs.empires]
  have h := LH.forL (Er := only errors) (I := inv c) (c := c) (f := fun q : List Nat × Nat => do
      let e ← emp q.2
      revolve p e
      forL q.1 (fun o => do
        let u ← Mealpy.draw random
        if u < p.prob then revolve p o else Pure.pure ())
      update q.1) (k1 := fun q => one c + each c q.1.length) (k2 := fun q => one c + q.1.length)
    (fun pre y => (Same w y ∧ Own c (fun o => (∃ l ∈ w.empires, o ∈ l) ∨ ∃ q ∈ pre, w.emp[q.2]? = some o) y) ∧ ∀ q ∈ pre, q.2 < w.emp.length)
    w.empires.zipIdx [] ?_
  · rw [sum_zip w.empires (fun n => one c + each c n), sum_zip w.empires (fun n => one c + n)] at h
    have hfin : LH (only errors) (inv c) (fun y => (Same w y ∧ Own c (fun o => (∃ l ∈ w.empires, o ∈ l) ∨ ∃ q ∈ ([] ++ w.empires.zipIdx), w.emp[q.2]? = some o) y) ∧
        ∀ q ∈ ([] ++ w.empires.zipIdx), q.2 < w.emp.length) (each c w.emp.length) (each c w.emp.length) (do
          let s ← MonadState.get
          update s.ext.emp : M c Nat (World d K) Unit) (fun _ y => Same w y ∧ Counted y ∧ w.empires.length ≤ w.emp.length) := by
      refine LH.get fun s' hs' => ?_
      obtain ⟨⟨h1, h2⟩, h3⟩ := hs'
      rw [h1.emp]
      have hle : w.empires.length ≤ w.emp.length := by
        by_cases h0 : w.empires.length = 0
        · omega
        · have := h3 (w.empires[w.empires.length - 1], w.empires.length - 1) (by simp [List.mem_zipIdx_iff_getElem?])
          dsimp only at this
          omega
      refine LH.conseq (lh_update (c := c) hE (w := w) (D := fun o => (∃ l ∈ w.empires, o ∈ l) ∨ ∃ q ∈ w.empires.zipIdx, w.emp[q.2]? = some o)
        (l := w.emp) fun o ho => ?_) (fun y hy => ?_) (fun _ y hy => ⟨hy.1, hy.2.counted, hle⟩) (Nat.le_refl _) (Nat.le_refl _)
      · obtain ⟨i, hi, rfl⟩ := List.mem_iff_getElem.1 ho
        exact .inr ⟨(w.empires[i]'(by omega), i), by simp [List.mem_zipIdx_iff_getElem?], by simp⟩
      · subst hy
        exact ⟨h1, h2.sub fun o ho => by simpa using ho⟩
    refine LH.conseq (LH.bind h fun _ => hfin) (fun y hy => ?_) (fun _ y hy => hy) ?_ ?_
    · subst hy
      refine ⟨⟨hs, hown.sub ?_⟩, by simp⟩
      rintro o (ho | ⟨q, hq, -⟩)
      · exact ho
      · cases hq
    · unfold one each World.total
      split
      · simp
      · have := sum_const 1 w.empires
        simp only [Nat.add_zero] at this ⊢
        omega
    · have h1 : ∀ (k : Nat) (l : List (List Nat)), (l.map (fun a => k + a.length)).sum = l.length * k + (l.map List.length).sum := by
        intro k l
        induction l with
        | nil => simp
        | cons a l ih => rw [List.map_cons, List.sum_cons, ih, List.map_cons, List.sum_cons, List.length_cons, Nat.succ_mul]; omega
      rw [h1]
      unfold one each World.total
      split
      · omega
      · omega
  · rintro pre ⟨l, i⟩ post hpre
    dsimp only
    have hlm : l ∈ w.empires := by
      have : (l, i) ∈ w.empires.zipIdx := by
        have h := hpre
        rw [List.nil_append] at h
        rw [h]; simp
      rw [List.mem_zipIdx_iff_getElem?] at this
      exact List.mem_of_getElem? this
    refine lh_emp fun e => ?_
    refine LH.know (R := w.emp[i]? = some e ∧ ∀ q ∈ pre, q.2 < w.emp.length) (fun y hy => ⟨by rw [← hy.1.1.1.emp]; exact hy.2, hy.1.2⟩) fun ⟨hei, hlt⟩ => ?_
    have h1 := lh_revolve (c := c) hE hP p (w := w) (W := fun o => (∃ l ∈ w.empires, o ∈ l) ∨ ∃ q ∈ pre, w.emp[q.2]? = some o) (o := e)
    have h2 := LH.forL (Er := only errors) (I := inv c) (c := c) (f := fun o => (do
        let u ← Mealpy.draw random
        if u < p.prob then revolve p o else Pure.pure () : M c Nat (World d K) Unit)) (k1 := fun _ => 0) (k2 := fun _ => one c)
      (fun pre' y => Same w y ∧ Own c (fun o' => o' = e ∨ (∃ l ∈ w.empires, o' ∈ l) ∨ ∃ q ∈ pre, w.emp[q.2]? = some o') y) l [] ?_
    · have h3 := lh_update (c := c) hE (w := w) (D := fun o' => o' = e ∨ (∃ l ∈ w.empires, o' ∈ l) ∨ ∃ q ∈ pre, w.emp[q.2]? = some o') (l := l)
        (fun o ho => .inr (.inl ⟨l, hlm, ho⟩))
      refine LH.conseq (LH.bind h1 fun _ => LH.bind h2 fun _ => h3) (fun y hy => hy.1.1) (fun _ y hy => ⟨⟨hy.1, hy.2.sub ?_⟩, ?_⟩) ?_ ?_
      · rintro o (ho | ⟨q, hq, ho⟩)
        · exact .inr (.inl ho)
        · rcases List.mem_append.1 hq with hq | hq
          · exact .inr (.inr ⟨q, hq, ho⟩)
          · rw [List.mem_singleton.1 hq, hei] at ho
            injection ho with ho
            exact .inl ho.symm
      · intro q hq
        rcases List.mem_append.1 hq with hq | hq
        · exact hlt q hq
        · rw [List.mem_singleton.1 hq]
          exact (List.getElem?_eq_some_iff.1 hei).1
      · rw [sum_const]; unfold one each; split <;> simp
      · rw [sum_const]; unfold one each; split <;> simp
    · intro pre' o post' hpo
      have hol : o ∈ l := by rw [List.nil_append] at hpo; rw [hpo]; simp
      refine LH.draw (R := fun _ => True) (by dprim) fun u _ => LH.ite (fun _ => ?_) fun _ => ?_
      · refine LH.conseq (lh_revolve hE hP p (o := o)) (fun y hy => hy) (fun _ y hy => ⟨hy.1, hy.2.sub fun o' h => .inr h⟩) (by omega) (Nat.le_refl _)
      · exact LH.weaken (LH.pure fun _ h => h) (by omega) (by omega)

/-- the lengths of the lists -/
structure Len (c : Cfg d K) (p : Params K) (y : World d K) : Prop where
  empires : y.empires.length = p.empires
  col : y.col.length = c.popSize - p.empires
  counted : Counted y

theorem lh_challenge {p : Params K} {n i k : Nat} :
    LH (only errors) (inv c) (fun y => Len c p y ∧ y.total = n ∧ y.emp.length = p.empires) 0 0 (challenge i k : M c Nat (World d K) Unit)
      (fun _ y => Len c p y ∧ y.total = n ∧ y.emp.length = p.empires) := by
  unfold challenge
  refine LH.get fun s hs => LH.draw dt_nth fun l hl => LH.draw dt_nth fun o ho => lh_obj fun a => lh_emp fun e => lh_obj fun b => LH.ite (fun _ => ?_) fun _ => ?_
  · refine LH.modExt fun y hy => ?_
    obtain ⟨⟨⟨hy, ha⟩, -⟩, hb⟩ := hy
    subst hy
    refine ⟨⟨?_, hs.1.col, ?_⟩, ?_, ?_⟩
    · show (s.ext.empires.modify i _).length = _
      rw [List.length_modify]; exact hs.1.empires
    · intro o' a' h'
      show a'.ext < s.ext.next
      have h' : (s.ext.obj ++ [b, a])[o']? = some a' := h'
      rcases List.mem_append.1 (List.mem_of_getElem? h') with hm | hm
      · obtain ⟨j, hj, rfl⟩ := List.mem_iff_getElem.1 hm
        exact hs.1.counted j _ (by simp)
      · rcases List.mem_cons.1 hm with rfl | hm
        · exact hs.1.counted _ _ hb
        · rw [List.mem_singleton.1 hm]
          exact hs.1.counted _ _ ha
    · rw [← hs.2.1]
      show ((s.ext.empires.modify i _).map List.length).sum = (s.ext.empires.map List.length).sum
      congr 1
      refine List.ext_getElem? fun j => ?_
      rw [List.getElem?_map, List.getElem?_map, List.getElem?_modify]
      cases s.ext.empires[j]? with
      | none => rfl
      | some l =>
        simp only [Option.map_some, Option.map_eq_map, Option.some.injEq]
        split
        · rw [List.length_set]
        · rfl
    · show (s.ext.emp.set i _).length = _
      rw [List.length_set]; exact hs.2.2
  · refine LH.pure fun y hy => ?_
    obtain ⟨⟨⟨hy, -⟩, -⟩, -⟩ := hy
    subst hy
    exact hs

theorem lh_competition {p : Params K} {n : Nat} :
    LH (only errors) (inv c) (fun y => Len c p y ∧ y.total = n ∧ y.emp.length = p.empires) 0 0 (competition : M c Nat (World d K) Unit)
      (fun _ y => Len c p y ∧ y.total = n ∧ y.emp.length = p.empires) := by
  unfold competition
  refine LH.get fun s hs => ?_
  have h := LH.forL (Er := only errors) (I := inv c) (c := c) (f := fun q : List Nat × Nat => (forL (List.range q.1.length) (challenge q.2) : M c Nat (World d K) Unit))
    (k1 := fun _ => 0) (k2 := fun _ => 0) (fun _ y => Len c p y ∧ y.total = n ∧ y.emp.length = p.empires) s.ext.empires.zipIdx [] ?_
  · rw [sum_const, Nat.mul_zero] at h
    exact LH.conseq h (fun y hy => by subst hy; exact hs) (fun _ _ h => h) (Nat.le_refl _) (Nat.le_refl _)
  · intro pre q post _
    have h2 := LH.forL (Er := only errors) (I := inv c) (c := c) (f := fun k => (challenge q.2 k : M c Nat (World d K) Unit))
      (k1 := fun _ => 0) (k2 := fun _ => 0) (fun _ y => Len c p y ∧ y.total = n ∧ y.emp.length = p.empires) (List.range q.1.length) []
      (fun _ _ _ _ => lh_challenge)
    rw [sum_const, Nat.mul_zero] at h2
    exact h2

theorem lh_costs {p q : Params K} {n : Nat} :
    LH (only errors) (inv c) (fun y => Len c p y ∧ y.total = n ∧ y.emp.length = p.empires) 0 0 (costs q : M c Nat (World d K) (List (Option K)))
      (fun _ y => Len c p y ∧ y.total = n ∧ y.emp.length = p.empires) := by
  unfold costs
  refine LH.get fun s hs => ?_
  have h := LH.iter (Er := only errors) (I := inv c) (c := c) (f := fun i (acc : List (Option K)) => (do
      let l ← Mealpy.draw (nth s.ext.empires i)
      let x ← cost q l i
      Pure.pure (acc ++ [x]) : M c Nat (World d K) _)) (lo := 0) (hi := 0)
    (fun _ _ y => Len c p y ∧ y.total = n ∧ y.emp.length = p.empires) (a := []) s.ext.empires.length ?_
  · rw [Nat.mul_zero] at h
    exact LH.conseq h (fun y hy => by subst hy; exact hs) (fun _ _ h => h) (Nat.le_refl _) (Nat.le_refl _)
  · intro i acc _
    refine LH.draw dt_nth fun l _ => ?_
    refine LH.bind0 (R := fun _ y => Len c p y ∧ y.total = n ∧ y.emp.length = p.empires) ?_ fun x => LH.pure fun _ h => h
    unfold cost
    exact lh_objs fun as _ => lh_emp fun e => lh_obj fun b => LH.pure fun y h => h.1.1.1

theorem total_modify {l : List (List Nat)} {i o : Nat} :
    (l.map List.length).sum ≤ ((l.modify i (fun l => l ++ [o])).map List.length).sum ∧
      ((l.modify i (fun l => l ++ [o])).map List.length).sum ≤ (l.map List.length).sum + 1 := by
  induction l generalizing i with
  | nil => cases i <;> simp
  | cons a l ih =>
    cases i with
    | zero => simp; omega
    | succ i =>
      have := ih (i := i)
      simp only [List.modify_succ_cons, List.map_cons, List.sum_cons]
      omega

theorem lh_transfer {p : Params K} {n strong weak : Nat} :
    LH (only errors) (inv c) (fun y => Len c p y ∧ y.total = n ∧ y.emp.length = p.empires) 0 0 (transfer strong weak : M c Nat (World d K) Unit)
      (fun _ y => Len c p y ∧ n ≤ y.total ∧ y.total ≤ n + 1 ∧ y.emp.length ≤ p.empires ∧ p.empires ≤ y.emp.length + 1) := by
  unfold transfer
  refine LH.get fun s hs => LH.draw dt_nth fun l hl => LH.ite (fun _ => ?_) fun _ => ?_
  · refine lh_objs fun as _ => LH.draw (R := fun _ => True) ?_ fun o _ => LH.modExt fun y hy => ?_
    · split
      · exact DT.pure trivial
      · exact DT.throw (by simp [only, errors])
    · obtain ⟨hy, -⟩ := hy
      subst hy
      have ht := total_modify (l := s.ext.empires) (i := strong) (o := o)
      have h2 : (s.ext.empires.map List.length).sum = n := hs.2.1
      refine ⟨⟨?_, hs.1.col, hs.1.counted⟩, by rw [← h2]; exact ht.1, by rw [← h2]; exact ht.2, by show s.ext.emp.length ≤ _; omega,
        by show _ ≤ s.ext.emp.length + 1; omega⟩
      show (s.ext.empires.modify _ _).length = _
      rw [List.length_modify]; exact hs.1.empires
  · refine lh_emp fun e => LH.modExt fun y hy => ?_
    obtain ⟨hy, he⟩ := hy
    subst hy
    have ht := total_modify (l := s.ext.empires) (i := strong) (o := e)
    have h2 : (s.ext.empires.map List.length).sum = n := hs.2.1
    have hlt := (List.getElem?_eq_some_iff.1 he).1
    have hel := List.length_eraseIdx_of_lt hlt
    refine ⟨⟨?_, hs.1.col, hs.1.counted⟩, by rw [← h2]; exact ht.1, by rw [← h2]; exact ht.2, by show (s.ext.emp.eraseIdx weak).length ≤ _; omega,
      by show _ ≤ (s.ext.emp.eraseIdx weak).length + 1; omega⟩
    show (s.ext.empires.modify _ _).length = _
    rw [List.length_modify]; exact hs.1.empires

/-- the condition on the attributes after `k` epochs -/
structure After (c : Cfg d K) (p : Params K) (k : Nat) (y : World d K) : Prop where
  len : Len c p y
  emp : y.emp.length ≤ p.empires
  lo : c.popSize - p.empires ≤ y.total
  hi : y.total ≤ c.popSize - p.empires + k

theorem lh_evolve (hE : c.E.Lawful) (hP : c.P.Lawful) (hc : Accepted c 10) (p : Params K) (h2 : 2 ≤ p.empires) (h5 : p.empires ≤ 2 + c.popSize / 5)
    {k ep : Nat} (hk : k < c.epoch) :
    LH (only errors) (inv c) (After c p k) c.popSize (2 * (c.popSize + c.epoch)) (evolve p ep : M c Nat (World d K) Unit)
      (fun _ => After c p (k + 1)) := by
  have hpop := hc.pop
  -- name the attributes at the start
  suffices h : ∀ w, After c p k w → LH (only errors) (inv c) (fun y => y = w) c.popSize (2 * (c.popSize + c.epoch))
      (evolve p ep : M c Nat (World d K) Unit) (fun _ => After c p (k + 1)) from
    fun s hs => h s.ext hs.ext s (LH.attr hs rfl)
  intro w hw
  have hlo := hw.lo
  have hhi := hw.hi
  have hemp := hw.emp
  have hel := hw.len.empires
  unfold evolve
  have hrest : LH (only errors) (inv c) (fun y => Same w y ∧ Counted y ∧ w.empires.length ≤ w.emp.length) 0 0 (do
      let s ← MonadState.get
      let es ← objs s.ext.emp
      let _ ← updateGlobalBestNoSave es
      competition
      let cs ← costs p
      let u ← Mealpy.draw (Mealpy.iter cs.length (fun _ acc => do
        let x ← uniform 0 1
        Pure.pure (acc ++ [x])) [])
      let (strong, weak) := rivals cs u
      transfer strong weak
      gather : M c Nat (World d K) Unit) (fun _ => After c p (k + 1)) := by
    refine LH.get fun s hs => ?_
    obtain ⟨hs, hcount, hle⟩ := hs
    have hsl : s.ext.emp.length = p.empires := by rw [hs.emp]; omega
    refine lh_objs fun es hes => ?_
    have hup := LT.updateNoSave (Er := only errors) (I := { inv c with attr := fun y => y = s.ext ∧ ∀ a ∈ es, ∃ o ∈ s.ext.emp, y.obj[o]? = some a }) hE
      (c := c) (pop := es) (by omega)
    refine LH.bind0 (LH.ofLT hup) fun r => ?_
    refine LH.conseq (P' := fun y => Len c p y ∧ y.total = w.total ∧ y.emp.length = p.empires) (lo' := 0) (hi' := 0) (Q' := fun _ => After c p (k + 1))
      ?_ (fun y hy => ?_) (fun _ _ h => h) (by omega) (by omega)
    · refine LH.bind0 lh_competition fun _ => LH.bind0 lh_costs fun cs => LH.draw (R := fun _ => True)
        (DT.iter (fun _ _ => True) _ trivial fun i a _ _ => DT.bind (R := fun _ => True) (by dprim) fun _ _ => DT.pure trivial) fun u _ => ?_
      refine LH.bind0 lh_transfer fun _ => ?_
      unfold gather
      refine LH.get fun s' hs' => ?_
      refine LH.bind0 (R := fun l y => y = s'.ext ∧ l.length = (s'.ext.emp ++ s'.ext.col).length) ?_ fun l => ?_
      · intro t ht
        refine Wp.bind (Wp.get (Wp.draw (dt_lookups _) fun a r v ha => ?_))
        exact LH.attrS (.base ht (.refl rfl)) ⟨ht.ext, ha.1⟩
      · refine LH.know (R := l.length = (s'.ext.emp ++ s'.ext.col).length) (fun y hy => hy.2) fun hll => ?_
        obtain ⟨g1, g2, g3, g4, g5⟩ := hs'
        have hcol := g1.col
        rw [List.length_append] at hll
        refine LH.conseq (LH.ofLT (LT.setPop ?_)) (fun y hy => hy) (fun _ y hy => ?_) (by omega) (by omega)
        · show l.length = c.popSize ∨ l.length + 1 = c.popSize
          omega
        · obtain ⟨-, hy, -⟩ := hy
          subst hy
          exact ⟨g1, g4, by omega, by omega⟩
    · obtain ⟨-, hy, -⟩ := hy
      subst hy
      refine ⟨⟨by rw [hs.empires]; exact hel, by rw [hs.col]; exact hw.len.col, hcount⟩, ?_, hsl⟩
      unfold World.total
      rw [hs.empires]
  refine LH.weaken (LH.bind (lh_assimilation hE hP p hw.len.counted) fun _ => LH.bind (lh_revolution hE hP p (by omega)) fun _ => hrest) ?_ ?_
  · split <;> omega
  · omega

theorem dt_divide (hE : c.E.Lawful) {costs : List K} {n m : Nat} : DT (only errors) (divide costs n m : D c _)
    (fun q => q.2.length = m ∧ (q.2.map List.length).sum = q.1.length ∧ q.1.Nodup ∧ ∀ i ∈ q.1, i < n) := by
  unfold divide
  refine DT.iter (fun i (q : List Nat × List (List Nat)) => q.2.length = i ∧ (q.2.map List.length).sum = q.1.length ∧ q.1.Nodup ∧ ∀ i ∈ q.1, i < n) m
    ⟨rfl, rfl, List.nodup_nil, by simp⟩ fun i q _ hq => ?_
  obtain ⟨h1, h2, h3, h4⟩ := hq
  refine DT.bind (R := fun _ => True) ?_ fun k _ => DT.bind (DT.inSomeOrder hE) fun rest hr => DT.bind (DT.choice_err hE (by simp [only, errors])) fun is his =>
    DT.pure ?_
  · unfold share
    refine DT.bind dt_nth fun x _ => DT.ite (fun _ => DT.throw ?_) fun _ => DT.pure trivial
    split <;> simp [only, errors]
  obtain ⟨-, g2, g3⟩ := his
  have hnd : (rangeWithout n q.1).Nodup := List.Nodup.filter _ List.nodup_range
  have hrn : rest.Nodup := hr.nodup_iff.2 hnd
  have hm : ∀ j ∈ is.filterMap (fun i => rest[i]?), j < n ∧ j ∉ q.1 := by
    intro j hj
    obtain ⟨i, -, hi⟩ := List.mem_filterMap.1 hj
    exact rangeWithout_mem.1 (hr.mem_iff.1 (List.mem_of_getElem? hi))
  refine ⟨by simp [h1], by simp [h2], ?_, ?_⟩
  · refine List.nodup_append.2 ⟨h3, ?_, fun a ha b hb hab => (hm b hb).2 (hab ▸ ha)⟩
    refine List.Nodup.filterMap ?_ (g3 rfl)
    intro a a' b hb hb'
    obtain ⟨l1, e1⟩ := List.getElem?_eq_some_iff.1 hb
    obtain ⟨l2, e2⟩ := List.getElem?_eq_some_iff.1 hb'
    exact (List.Nodup.getElem_inj_iff hrn).1 (e1.trans e2.symm)
  · intro j hj
    rcases List.mem_append.1 hj with hj | hj
    · exact h4 j hj
    · exact (hm j hj).1

/-- the contract of the class -/
theorem lok (hE : c.E.Lawful) (hP : c.P.Lawful) (hc : Accepted c 10) (p : Params K) (h2 : 2 ≤ p.empires) (h5 : p.empires ≤ 2 + c.popSize / 5) :
    (algo p : Algo c Nat (World d K)).LOkE (only errors) (inv c) (After c p) (fun _ => True) (After c p 0) c.popSize c.popSize 0 0
      c.popSize (2 * (c.popSize + c.epoch)) := by
  have hpop := hc.pop
  have h0 := Algo.std_lok (Er := only errors) (I := inv c) (lo := 0) (hi := 0)
    (A := { algo p with initialization := defaultInit (fun _ => Pure.pure 0), evolve := fun _ => Pure.pure () }) hE hP (.inl rfl)
    (fun n hn => by have : n = c.popSize ∨ n + 1 = c.popSize := hn; omega) (fun x h => h) rfl rfl (fun _ => DT.pure trivial) (DT.pure trivial)
    (fun _ _ _ => LT.pure trivial)
  have h1 := Algo.std_lok (Er := only errors) (I := { inv c with size := fun n => n = c.popSize }) (lo := 0) (hi := 0)
    (A := { algo p with initialization := defaultInit (fun _ => Pure.pure 0), evolve := fun _ => Pure.pure () }) hE hP rfl
    (fun n hn => by have : n = c.popSize := hn; omega) (fun x h => h) rfl rfl (fun _ => DT.pure trivial) (DT.pure trivial)
    (fun _ _ _ => LT.pure trivial)
  refine ⟨h0.box, h0.nonempty, h0.mkExt, h0.initVars, ?_, ?_, fun k hk s hs => lh_evolve hE hP hc p h2 h5 (ep := k + 1) hk s hs⟩
  · intro y q b hy hp
    show Wp _ (init p y q) b _
    unfold init
    refine Wp.bind (Wp.mono (h1.init y q b trivial hp) ?_)
    rintro r b' ⟨g1, -, new, e1, e2, e3, e4⟩
    have g1 : r.1.length = c.popSize := g1
    dsimp only
    refine Wp.bind (Wp.liftD (dt_divide hE) fun q2 r2 v2 hq => ?_)
    refine Wp.bind (Wp.liftD (DT.inSomeOrder hE) fun last r3 v3 hlast => ?_)
    refine Wp.bind (Wp.liftD (dt_lookups _) fun copies r4 v4 hcp => Wp.pure ?_)
    obtain ⟨q1, q3, q4, q5⟩ := hq
    have hll := hlast.length_eq
    have hrl := rangeWithout_length_eq q4 q5
    have hql : q2.1.length ≤ c.popSize - p.empires := by
      have := (List.subperm_of_subset q4 (fun i hi => List.mem_range.2 (q5 i hi))).length_le
      simpa using this
    have hcl : copies.length = c.popSize - p.empires - q2.1.length := by
      rw [hcp.1, List.length_map]; omega
    have hsl : (getSorted c.E.argsort (r.1.mapIdx (fun i a => ({ a with ext := i } : Agent d K Nat))) c.P.mm).1.length = c.popSize := by
      rw [getSorted_length hE.argsortLaw, List.length_mapIdx]; exact g1
    have hext : ∀ a ∈ (getSorted c.E.argsort (r.1.mapIdx (fun i a => ({ a with ext := i } : Agent d K Nat))) c.P.mm).1, a.ext < c.popSize := by
      intro a ha
      obtain ⟨i, hi, rfl⟩ := List.mem_mapIdx.1 ((getSorted_mem hE.argsortLaw).1 ha)
      show i < _
      omega
    refine ⟨.inl hsl, ⟨⟨?_, ?_, ?_⟩, ?_, ?_, ?_⟩, new, e1, e2, e3, e4⟩
    · show (q2.2.map _ ++ [_]).length = _
      simp [q1]; omega
    · show ((List.range _).map _).length = _
      simp
    · intro o a ha
      show a.ext < c.popSize
      rcases List.mem_append.1 (List.mem_of_getElem? ha) with hm | hm
      · exact hext a hm
      · obtain ⟨o', -, ho'⟩ := hcp.2 a hm
        exact hext a (List.mem_of_getElem? ho')
    · show (List.range _).length ≤ _
      simp
    all_goals
      have : World.total (⟨c.popSize, (getSorted c.E.argsort (r.1.mapIdx (fun i a => ({ a with ext := i } : Agent d K Nat))) c.P.mm).1 ++ copies,
          List.range p.empires, (List.range (c.popSize - p.empires)).map (p.empires + ·), q2.2.map (fun l => l.map (p.empires + ·)) ++
          [(List.range copies.length).map ((getSorted c.E.argsort (r.1.mapIdx (fun i a => ({ a with ext := i } : Agent d K Nat))) c.P.mm).1.length + ·)]⟩ : World d K) =
          c.popSize - p.empires := by
        unfold World.total
        dsimp only
        rw [List.map_append, List.sum_append, List.map_map]
        have : (q2.2.map (List.length ∘ fun l => l.map (p.empires + ·))).sum = q2.1.length := by
          rw [← q3]
          congr 1
          exact List.map_congr_left fun l _ => by simp
        rw [this]
        simp
        omega
      first
      | exact Nat.le_of_eq this.symm
      | exact Nat.le_of_eq this
  · intro s hs
    exact Wp.pure (.refl hs)

end OriginalICA

end Mealpy
