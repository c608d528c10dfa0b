import Verif.Keepers2
import Verif.Alg.Risky
import Verif.Alg.Careless
import Verif.Alg.LSHADEcn
import Verif.Alg.Hang
import Verif.Alg.FOA
import Verif.Alg.SA

/-!
# Further algorithms that keep what they evaluate

TS appends the best candidate of an epoch, SBO gives every agent the newest target, LSHADEcnEpSin cuts a sorted population, and HCO regenerates an agent
until it beats the one it replaces.
-/

set_option linter.unusedSectionVars false
set_option linter.unusedVariables false

namespace Mealpy
open Spec

variable {d : Nat} {K : Type} [Num K] {c : Cfg d K} {X Y α β : Type} {r : Agent d K X} {q : List (Agent d K X)} {y : Y}

theorem OriginalTS.mem_forget {n : Nat} (hn : 1 ≤ n) {l : List α} {a : α} : a ∈ OriginalTS.forget n (l ++ [a]) := by
  unfold OriginalTS.forget
  split
  · cases l with
    | nil => simp only [List.nil_append, List.length_singleton] at *; omega
    | cons b l => simp
  · simp

theorem OriginalTS.keeper (hE : c.E.Lawful) (hP : c.P.Lawful) {p : OriginalTS.Params K} (hp : 1 ≤ p.tabu) : Keeper false Free (OriginalTS.algo p : Algo c Unit (Vec d K)) :=
  .pre hE hP fun ep r q y => .bindGet fun s _ _ _ => .bindDraw fun pend => .bindQ (Qt.evalAll hE) fun new _ => .bind0 (.drawR (DT.bestT hE)) fun b hb =>
    .bind (.replace (.all (List.mem_cons_of_mem _ (OriginalTS.mem_forget hp)) fun a ha => hb.2 a (by simpa using ha))) fun _ q y _ => .modExt ⟨.rfl, trivial⟩

theorem OriginalSBO.keeper (hE : c.E.Lawful) (hP : c.P.Lawful) {p : OriginalSBO.Params K} : Keeper false Free (OriginalSBO.algo p : Algo c Unit Unit) := by
  refine .plain hE hP fun ep r q y => .bindGet fun s _ _ _ => .ite
    (fun _ => .bindDraw fun pend => .bindQ (Qt.updateTargets hE) fun new _ => .replace (.append .nil .rfl))
    fun _ => .post (.iter (fun i _ q _ => q.take i) (fun _ => Any3) .nil trivial fun i _ q y _ _ => .bindPop fun me hme => .bindDraw fun m =>
      .bindQ (Qt.getTarget (e := ())) fun t _ => .setAt fun hi => ⟨?_, trivial⟩) fun _ q _ _ => ⟨.sub fun a ha => List.mem_append_left _ (List.mem_of_mem_take ha), trivial⟩
  have e : List.take (i + 1) (q.set i { me with tgt := t }) = q.take i ++ [{ me with tgt := t }] := by
    rw [List.take_add_one, List.take_set_of_le le_rfl, List.getElem?_set_self hi]
    rfl
  rw [e]
  exact .append Dom.rfl.left (.one (List.mem_append_right _ (List.mem_singleton.2 rfl)) NoWorse.rfl)

namespace OriginalLSHADEcnEpSin
theorem set_same {l : List α} {i : Nat} {a : α} (h : l[i]? = some a) : l.set i a = l := by
  have hi := SARO.lt_of_some h
  rw [List.getElem?_eq_getElem hi] at h
  rw [← Option.some.inj h, List.set_getElem_self]

variable {p : Params K}

theorem dt_reduceT (hE : c.E.Lawful) {pop : List (Agent d K Unit)} {n m : Nat} (hm : 0 < m) {r : Agent d K Unit} :
    DT (fun _ => True) (reduce pop n m : D c _) (fun l => Dom c.P.mm r pop l) := by
  unfold reduce
  refine DT.ite (fun hlt => DT.bind (DT.sortedPop' hE) fun sorted hs => DT.bind (DT.permutation hE) fun ord ho => DT.pure ?_) fun _ => DT.pure .rfl
  have hin : ∀ a ∈ sorted.take m, a ∈ ord.filterMap (fun i => (sorted.take m)[i]?) := by
    intro a ha
    obtain ⟨i, hi, rfl⟩ := List.getElem_of_mem ha
    exact List.mem_filterMap.2 ⟨i, ho.mem_iff.2 (List.mem_range.2 hi), List.getElem?_eq_getElem hi⟩
  cases sorted with
  | nil =>
    obtain rfl : pop = [] := List.length_eq_zero_iff.1 hs.1.symm
    exact .nil
  | cons b l =>
    refine .all (b := b) (List.mem_cons_of_mem _ (hin b ?_)) fun a ha => ?_
    · obtain ⟨m, rfl⟩ : ∃ k, m = k + 1 := ⟨m - 1, by omega⟩
      simp
    · rcases List.mem_cons.1 ((hs.2.1 a).2 ha) with rfl | h
      · exact NoWorse.rfl
      · exact (List.pairwise_cons.1 hs.2.2).1 a h

theorem keeper (hE : c.E.Lawful) (hP : c.P.Lawful) (hp : 1 ≤ p.min) : Keeper false Free (OriginalLSHADEcnEpSin.algo p : Algo c Unit (Vars d K)) := by
  refine .pre hE hP fun ep r q y => .bindGet fun s _ _ _ =>
    .bind (.iter (fun _ run _ _ => run.pop) (fun _ => Any3) ?_ trivial fun i run q y _ _ => ?_) fun run q y _ =>
    .bind0 (.drawR (dt_reduceT hE (r := r) (m := size c p ep) (Nat.lt_of_lt_of_le hp (Nat.le_add_right _ _)))) fun pop hpop => .bindDraw fun ar =>
    .bind (.replace hpop) fun _ q y _ => .modExt ⟨.rfl, trivial⟩
  · exact .nil
  · refine .bindDraw fun t => .bind0 (.drawR DT.nthT) fun x hx => .bindQ (Qt.getTarget (e := ())) fun t' _ => .ite (fun h => .pure ?_ trivial) fun h => .pure ?_ trivial
    · simpa using Dom.slot (H := []) (b := ⟨t.1, t', ()⟩) hx (compareTarget_true h) NoWorse.rfl
    · exact .append .rfl (.one (List.mem_of_getElem? hx) (compareTarget_false (by simpa using h)))

end OriginalLSHADEcnEpSin

namespace OriginalHCO

theorem cf_true {a b : K} {mm : MinMax} (h : compareFitness a b mm = true) : NoWorse mm a b := by
  cases mm <;> simp [compareFitness, NoWorse] at *
  · exact le_of_lt h
  · exact h

theorem cf_false {a b : K} {mm : MinMax} (h : compareFitness a b mm = false) : NoWorse mm b a := by
  cases mm <;> simp [compareFitness, NoWorse] at *
  · exact h
  · exact le_of_lt h

/-- an agent with the fitness `f` -/
def mark (c : Cfg d K) (f : K) : Agent d K Unit := ⟨fun _ => 0, { c.P.target (fun _ => 0) with fitness := f }, ()⟩

theorem qb_hunt {fuel : Nat} {f : K} : Qb (hunt fuel f : B c (Agent d K Unit)) (fun a => [a]) (fun a => NoWorse c.P.mm a.fit f) := by
  unfold hunt
  refine .bind (H := fun o => match o with | some a => [a] | none => [mark c f]) (R := fun o => ∀ a, o = some a → NoWorse c.P.mm a.fit f)
    (Qb.iter (fun _ (o : Option (Agent d K Unit)) => ∀ a, o = some a → NoWorse c.P.mm a.fit f) (by simp) fun i o _ ho => ?_) fun o ho => ?_
  · cases o with
    | some a => exact .pure ⟨ho, fun x hx => ⟨x, hx, NoWorse.rfl⟩⟩
    | none =>
      refine .bind0 .liftD fun x _ => .bind (Qb.getTarget (e := ())) fun t _ => .pure ?_
      cases hc : compareFitness t.fitness f c.P.mm with
      | true =>
        refine ⟨⟨fun a ha => ?_, fun x hx => ⟨_, List.mem_singleton.2 rfl, ?_⟩⟩, fun x hx => ⟨x, by simpa using hx, NoWorse.rfl⟩⟩
        · simp only [if_true, Option.some.injEq] at ha
          subst ha
          exact cf_true hc
        · rw [List.mem_singleton.1 hx]
          exact cf_true hc
      | false =>
        refine ⟨⟨by simp, fun x hx => ⟨x, by simpa using hx, NoWorse.rfl⟩⟩, fun x hx => ⟨mark c f, by simp, ?_⟩⟩
        rw [List.mem_singleton.1 hx]
        exact cf_false hc
  · cases o with
    | some a => exact .pure ⟨ho a rfl, fun x hx => ⟨x, hx, NoWorse.rfl⟩⟩
    | none => exact Qb.throw

theorem zip_left {mm : MinMax} {f : Agent d K X → Agent d K X → Agent d K X} {G H : List (Agent d K X)} (hf : ∀ o n, NoWorse mm (f o n).fit o.fit) (hl : G.length ≤ H.length) :
    ∀ a ∈ G, ∃ b ∈ List.zipWith f G H, NoWorse mm b.fit a.fit := by
  intro a ha
  obtain ⟨k, hk, rfl⟩ := List.getElem_of_mem ha
  exact ⟨f G[k] (H[k]'(by omega)), List.mem_iff_getElem.2 ⟨k, by simp; omega, by simp⟩, hf _ _⟩

theorem zip_right {mm : MinMax} {f : Agent d K X → Agent d K X → Agent d K X} {G H : List (Agent d K X)} (hf : ∀ o n, NoWorse mm (f o n).fit n.fit) (hl : H.length ≤ G.length) :
    ∀ a ∈ H, ∃ b ∈ List.zipWith f G H, NoWorse mm b.fit a.fit := by
  intro a ha
  obtain ⟨k, hk, rfl⟩ := List.getElem_of_mem ha
  exact ⟨f (G[k]'(by omega)) H[k], List.mem_iff_getElem.2 ⟨k, by simp; omega, by simp⟩, hf _ _⟩

theorem qb_replaceBad {fuel : Nat} {f : K} {pop : List (Agent d K Unit)} :
    Qb (replaceBad fuel f pop : B c _) (fun l => l) (fun l => ∀ a ∈ pop, ∃ b ∈ l, NoWorse c.P.mm b.fit a.fit) := by
  unfold replaceBad
  refine Qb.iter (fun _ (l : List (Agent d K Unit)) => ∀ a ∈ pop, ∃ b ∈ l, NoWorse c.P.mm b.fit a.fit) (fun a ha => ⟨a, ha, NoWorse.rfl⟩) fun i l _ hI => ?_
  refine .bind0 (.liftDR DT.nthT) fun a ha => ?_
  split
  · rename_i hc
    refine .bind qb_hunt fun b hb => .pure ?_
    have hi := SARO.lt_of_some ha
    have hset : ∀ x ∈ l, ∃ e ∈ l.set i b, NoWorse c.P.mm e.fit x.fit := by
      intro x hx
      obtain ⟨k, hk, rfl⟩ := List.getElem_of_mem hx
      by_cases hki : k = i
      · subst hki
        rw [List.getElem?_eq_getElem hk] at ha
        refine ⟨b, List.mem_of_getElem? (List.getElem?_set_self hi), ?_⟩
        rw [Option.some.inj ha]
        exact NoWorse.trans hb (cf_true hc)
      · exact ⟨_, List.mem_of_getElem? (i := k) (by rw [List.getElem?_set_ne (by omega), List.getElem?_eq_getElem hk]), NoWorse.rfl⟩
    refine ⟨⟨fun x hx => ?_, hset⟩, fun x hx => ⟨b, List.mem_of_getElem? (List.getElem?_set_self hi), by rw [List.mem_singleton.1 hx]; exact NoWorse.rfl⟩⟩
    obtain ⟨e, he, hn⟩ := hI x hx
    obtain ⟨e', he', hn'⟩ := hset e he
    exact ⟨e', he', hn'.trans hn⟩
  · exact .pure ⟨hI, fun x hx => ⟨x, hx, NoWorse.rfl⟩⟩

theorem qb_buildB (hE : c.E.Lawful) {n : Nat} {mk : Nat → D c (Vec d K × Unit)} : Qb (buildB n mk : B c _) (fun l => l) (fun l => l.length = n) := by
  unfold buildB
  split
  · exact .bind0 (.liftDR (DT.repM (Q := fun _ => True) fun _ _ => DT.any)) fun pend hp => (Qb.updateTargets hE).weak fun l h => by rw [h, List.length_map]; exact hp.1
  · refine Qb.iter (fun i (l : List (Agent d K Unit)) => l.length = i) rfl fun i l _ hl => .bind0 .liftD fun (p : Vec d K × Unit) _ => .bind (Qb.getTarget (e := p.2)) fun t ht => .pure
      ⟨⟨by simp [hl], fun x hx => ⟨x, by simp [hx], NoWorse.rfl⟩⟩, fun x hx => ⟨x, List.mem_append_right _ hx, NoWorse.rfl⟩⟩

theorem qb_opposite (hE : c.E.Lawful) {pop : List (Agent d K Unit)} :
    Qb (opposite pop : B c _) (fun l => l) (fun l => ∀ a ∈ pop, ∃ b ∈ l, NoWorse c.P.mm b.fit a.fit) := by
  unfold opposite
  refine .bind (qb_buildB hE) fun new hn => .pure ?_
  have hd : ∀ a ∈ pop ++ new, ∃ b ∈ (if c.swarmLike then zipGreedy c.P.mm pop new else zipBetter c.P.mm new pop), NoWorse c.P.mm b.fit a.fit := by
    intro a ha
    rcases List.mem_append.1 ha with ha | ha <;> split
    · exact zip_left (greedyPick_noWorse _) hn.ge a ha
    · exact zip_right (fun a b => (getBetterAgent_cases a b c.P.mm).2.2) hn.ge a ha
    · exact zip_right (greedyPick_noWorse' _) hn.le a ha
    · exact zip_left (fun a b => (getBetterAgent_cases a b c.P.mm).2.1) hn.le a ha
  exact ⟨fun a ha => hd a (List.mem_append_left _ ha), fun a ha => hd a (List.mem_append_right _ ha)⟩

theorem keep_left {mm : MinMax} (n o : Agent d K Unit) : NoWorse mm (keep mm n o).fit n.fit := by
  unfold keep
  split
  · exact NoWorse.rfl
  · rename_i h
    exact compareTarget_false (by simpa using h)

/-- there are as many positions as could be looked up -/
theorem dt_moves {pop : List (Agent d K Unit)} {vec : List (Vec d K)} :
    DT (fun _ => True) (repM c.popSize (fun i => do
      let a ← nth pop i
      let v ← nth vec i
      let x ← correct (fun j => a.sol j + v j)
      pure (x, ())) : D c (List (Vec d K × Unit))) (fun l => l.length ≤ pop.length) := by
  unfold repM
  refine DT.mono (DT.iter (fun i (l : List (Vec d K × Unit)) => l.length = i ∧ i ≤ pop.length) c.popSize ⟨rfl, Nat.zero_le _⟩ fun i l _ hl => ?_) fun l h => h.1.le.trans h.2
  exact DT.bind (DT.bind DT.nthT fun a ha => DT.bind DT.any fun v _ => DT.bind DT.any fun x _ => DT.pure (SARO.lt_of_some ha : i < pop.length))
    fun x hx => DT.pure ⟨by simp [hl.1], hx⟩

theorem keeper (hE : c.E.Lawful) (hP : c.P.Lawful) {p : Params K} : Keeper false Free (OriginalHCO.algo p : Algo c Unit (Vars d K)) := by
  refine .custom hE (fun y l hl => ?_) fun ep r q y => .bindGet fun s _ _ _ => .bindDraw fun lam => .bind0 (.drawR dt_moves) fun pend hp => .bindQ (Qt.evalAll hE) fun new hn =>
    .bind (.replace fun a ha => ?_) fun _ q y _ => .modExt ⟨.rfl, trivial⟩
  · unfold initialization
    refine .bind (Qb.startPop hE hP hl) fun p1 h1 => .bind (qb_opposite hE) fun p2 h2 => .bind0 .liftD fun _ _ => .bind0 .liftD fun _ _ => .bind qb_replaceBad fun p3 h3 =>
      .bind0 .liftD fun _ _ => .pure ?_
    have h12 : ∀ a ∈ p1, ∃ e ∈ p3, NoWorse c.P.mm e.fit a.fit := fun a ha => by
      obtain ⟨e, he, hn⟩ := h2 a ha
      obtain ⟨e', he', hn'⟩ := h3 e he
      exact ⟨e', he', hn'.trans hn⟩
    exact ⟨⟨⟨fun a ha => h12 a (h1.2 a ha), h12⟩, h3⟩, fun a ha => ⟨a, ha, NoWorse.rfl⟩⟩
  · obtain ⟨b, hb, h⟩ := zip_left (G := new) (H := s.pop) keep_left (by omega) a (by simpa using ha)
    exact ⟨b, List.mem_cons_of_mem _ hb, h⟩

end OriginalHCO

namespace OriginalFOA

theorem qb_spawn : Qb (spawn : B c (Agent d K Unit)) (fun a => [a]) Any := by
  unfold spawn
  exact .bind0 .liftD fun x _ => Qb.agentOf.weak fun _ _ => trivial

theorem qb_spawnSeq {n : Nat} : Qb (spawnSeq n : B c (List (Agent d K Unit))) (fun l => l) (fun l => l.length = n) := by
  unfold spawnSeq
  refine Qb.iter (fun i (l : List (Agent d K Unit)) => l.length = i) rfl fun i l _ hl => .bind qb_spawn fun a _ => .pure ⟨⟨by simp [hl], ?_⟩, ?_⟩
  · exact fun x hx => ⟨x, List.mem_append_left _ hx, NoWorse.rfl⟩
  · exact fun x hx => ⟨x, List.mem_append_right _ hx, NoWorse.rfl⟩

theorem qb_init (hE : c.E.Lawful) (hP : c.P.Lawful) {y : Unit} {p : Option (List (Agent d K Unit))} :
    Qb (initialization y p : B c _) (fun r => r.1) (fun r => ∀ a ∈ p.getD [], ∃ e ∈ r.1, NoWorse c.P.mm e.fit a.fit) := by
  unfold initialization
  split
  · exact .pure fun a ha => ⟨a, ha, NoWorse.rfl⟩
  · refine .bind (H := fun l => l) (R := Any) (fun b => Wp.mono (spawnPop_spec hE hP c.popSize) ?_) fun l _ => .pure ⟨by simp, fun a ha => ⟨a, ha, NoWorse.rfl⟩⟩
    rintro pop b' ⟨h1, h2, new, h3, h3'⟩
    refine ⟨⟨new, h3, fun x hx => ?_⟩, trivial⟩
    obtain ⟨a, ha, rfl⟩ := List.mem_map.1 (h3'.mem_iff.1 hx)
    exact ⟨a, ha, by rw [← h2 a ha]; exact NoWorse.rfl⟩

/-- the flies' loop, if a position is computed only for an agent that exists -/
theorem kp_fly (hE : c.E.Lawful) {f : St c Unit Unit → Nat → D c (Vec d K)} (hf : ∀ s i, DT (fun _ => True) (f s i) (fun _ => i < s.pop.length))
    {r : Agent d K Unit} {q : List (Agent d K Unit)} {y : Unit} : Kp r q y [] (fly f) (InPop []) Any3 := by
  unfold fly
  refine .ite (fun _ => .bindGet fun s hs _ _ => .bind0 (S := fun l => l.length ≤ s.pop.length) (.drawR ?_) fun pend hp => .bindQ (Qt.updateTargets hE) fun new hn => .replace fun a ha => ?_)
    fun _ => .iter (fun _ => InPop []) (fun _ => Any3) .nil trivial fun i _ q y _ _ => .bindGet fun s _ _ _ => .bindDraw fun x => .bindQ (Qt.getTarget (e := ())) fun t _ => .bindPop fun me hme =>
      .setBest hme ?_ ?_ .rfl
  · unfold repM
    refine DT.mono (DT.iter (fun i (l : List (Vec d K × Unit)) => l.length = i ∧ i ≤ s.pop.length) c.popSize ⟨rfl, Nat.zero_le _⟩ fun i l _ hl => ?_) fun l h => h.1.le.trans h.2
    exact DT.bind (DT.bind (hf s i) fun a ha => DT.pure ha) fun x hx => DT.pure ⟨by simp [hl.1], hx⟩
  · obtain ⟨b, hb, h⟩ := OriginalHCO.zip_left (G := new) (H := s.pop) (greedyPick_noWorse c.P.mm) (by omega) a (by simpa using ha)
    exact ⟨b, List.mem_cons_of_mem _ hb, h⟩
  · exact (getBetterAgent_cases _ _ c.P.mm).2.2
  · exact (getBetterAgent_cases _ _ c.P.mm).2.1

theorem keeper (hE : c.E.Lawful) (hP : c.P.Lawful) : Keeper false Free (OriginalFOA.algo : Algo c Unit Unit) :=
  .custom hE (fun y l hl => qb_init hE hP) fun ep r q y => kp_fly hE fun s i => DT.bind DT.nthT fun me hm => DT.mono DT.any fun _ _ => SARO.lt_of_some hm

end OriginalFOA

theorem DevFOA.keeper (hE : c.E.Lawful) (hP : c.P.Lawful) : Keeper false Free (DevFOA.algo : Algo c Unit Unit) :=
  .custom hE (fun y l hl => OriginalFOA.qb_init hE hP) fun ep r q y => OriginalFOA.kp_fly hE fun s i => DT.bind DT.nthT fun me hm => DT.mono DT.any fun _ _ => SARO.lt_of_some hm

theorem WhaleFOA.keeper (hE : c.E.Lawful) (hP : c.P.Lawful) : Keeper false Free (WhaleFOA.algo : Algo c Unit Unit) :=
  .custom hE (fun y l hl => OriginalFOA.qb_init hE hP) fun ep r q y => OriginalFOA.kp_fly hE fun s i => DT.bind DT.nthT fun me hm => DT.mono DT.any fun _ _ => SARO.lt_of_some hm

theorem SwarmSA.head_best (hE : c.E.Lawful) {l : List (Agent d K X)} {n : Nat} {a : Agent d K X} (h : (getSortedTrimmed c.E.argsort l n c.P.mm)[0]? = some a) :
    ∀ b ∈ l, NoWorse c.P.mm a.fit b.fit := by
  intro b hb
  have hs := getSorted_bestFirst hE.argsortLaw l c.P.mm
  have hm := (getSorted_mem hE.argsortLaw (pop := l) (mm := c.P.mm) (a := b)).2 hb
  unfold getSortedTrimmed at h
  cases hl : (getSorted c.E.argsort l c.P.mm).1 with
  | nil => rw [hl] at hm; cases hm
  | cons x t =>
    rw [hl] at h hs hm
    cases n with
    | zero => simp at h
    | succ n =>
      simp at h
      subst h
      rcases List.mem_cons.1 hm with rfl | hm
      · exact NoWorse.rfl
      · exact (List.pairwise_cons.1 hs).1 b hm

/-- with one sub-iteration: the first slot holds the best of the new points or an agent as good -/
theorem SwarmSA.keeper (hE : c.E.Lawful) (hP : c.P.Lawful) {p : SwarmSA.Params K c.popSize} (hp : p.maxSubIter = 1) :
    Keeper false Free (SwarmSA.algo p : Algo c Unit (SwarmSA.Attr K)) := by
  refine ⟨fun o _ => Qb.initial hE (fun y p _ => Qb.defaultInit hE hP) o, .pure, fun ep r q y _ _ _ => ?_⟩
  show Kp r q y [] (iter p.maxSubIter (fun _ _ => SwarmSA.sub p) () >>= fun _ => modExt _) _ _
  rw [hp]
  refine .bind (.iter (fun k _ q _ => if k = 0 then [] else q ++ []) (fun _ => Any3) .nil trivial fun k _ q y hk _ => ?_) fun _ q y _ => .modExt ⟨.rfl, trivial⟩
  obtain rfl : k = 0 := by omega
  refine .bindQ (Qt.buildEval hE) fun new hn => .post (.iter (fun i _ q _ => if i = 0 then new else q.take 1) (fun _ => Any3) ?_ trivial fun i _ q y hi _ => ?_) fun _ q y _ => ⟨?_, trivial⟩
  · exact .append .nil .rfl
  · refine .bindGet fun s _ _ _ => .bind0 (.drawR DT.nthT) fun a ha => .bindPop fun old ho => ?_
    have hset : ∀ (b : Agent d K Unit), (i = 0 → ∀ e ∈ new, NoWorse c.P.mm b.fit e.fit) →
        Dom c.P.mm r (if i = 0 then new else q.take 1) (if i + 1 = 0 then new else (q.set i b).take 1) := by
      intro b hb
      rw [if_neg (Nat.succ_ne_zero i)]
      split
      · rename_i h0
        subst h0
        cases q with
        | nil => simp at ho
        | cons x t => exact .all (b := b) (by simp) (hb rfl)
      · cases q with
        | nil => exact .nil
        | cons x t =>
          obtain ⟨i, rfl⟩ : ∃ k, i = k + 1 := ⟨i - 1, by omega⟩
          exact .sub fun e he => by simpa using he
    have hbest : i = 0 → ∀ e ∈ new, NoWorse c.P.mm a.fit e.fit := fun h0 => by
      subst h0
      exact SwarmSA.head_best hE ha
    refine .ite (fun h => .setAt fun _ => ⟨hset a hbest, trivial⟩) fun h => .bindDraw fun u => .ite (fun _ => .setAt fun _ => ⟨hset a hbest, trivial⟩) fun _ => .pure ?_ trivial
    have := hset old fun h0 e he => NoWorse.trans (compareTarget_false (by simpa using h)) (hbest h0 e he)
    rwa [OriginalLSHADEcnEpSin.set_same ho] at this
  · rw [if_neg (Nat.succ_ne_zero 0)]
    split
    · rename_i h0
      have hn : new.length = 0 := hn.trans (Nat.mul_eq_zero.2 (.inl h0))
      rw [List.length_eq_zero_iff.1 hn]
      exact .nil
    · exact .sub fun e he => List.mem_append_left _ (List.mem_of_mem_take he)

end Mealpy
