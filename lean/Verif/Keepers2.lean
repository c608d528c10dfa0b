import Verif.Keepers
import Verif.Alg.GWO2

/-!
# More algorithms that keep what they evaluate

Those that hold agents outside the population (TPO, ImprovedTLO, SSpiderO) or leave slots of it unused (CRO, OCRO).
-/

set_option linter.unusedSectionVars false
set_option linter.unusedVariables false

namespace Mealpy
open Spec

variable {d : Nat} {K : Type} [Num K] {c : Cfg d K} {X Y α β : Type} {r : Agent d K X} {q : List (Agent d K X)} {y : Y}

/-- one of several groups is replaced -/
theorem Dom.flattenSet {ls : List (List (Agent d K X))} {i : Nat} {old l new : List (Agent d K X)} {mm : MinMax} (ho : ls[i]? = some old) (h : Dom mm r (old ++ new) l) :
    Dom mm r (ls.flatten ++ new) (ls.set i l).flatten := by
  have hi := SARO.lt_of_some ho
  have hl : Dom mm r l (ls.set i l).flatten := .sub fun a ha => List.mem_flatten.2 ⟨l, List.mem_of_getElem? (List.getElem?_set_self hi), ha⟩
  have ho' : Dom mm r old l := fun a ha => h a (List.mem_append_left _ ha)
  have hn' : Dom mm r new l := fun a ha => h a (List.mem_append_right _ ha)
  refine .append (fun a ha => ?_) (hn'.trans hl)
  obtain ⟨t, ht, hat⟩ := List.mem_flatten.1 ha
  obtain ⟨k, hk, rfl⟩ := List.getElem_of_mem ht
  by_cases hki : k = i
  · subst hki
    rw [List.getElem?_eq_getElem hk] at ho
    rw [Option.some.inj ho] at hat
    exact (ho'.trans hl) a hat
  · exact ⟨a, List.mem_cons_of_mem _ (List.mem_flatten.2 ⟨ls[k], List.mem_of_getElem? (i := k) (by
      rw [List.getElem?_set_ne (by omega), List.getElem?_eq_getElem hk]), hat⟩), NoWorse.rfl⟩

theorem Dom.zipGreedy {old new : List (Agent d K X)} {mm : MinMax} (h : old.length = new.length) : Dom mm r (old ++ new) (Mealpy.zipGreedy mm old new) :=
  Dom.zip (greedyPick_noWorse _) (greedyPick_noWorse' _) h

theorem Dom.zipBetter {old new : List (Agent d K X)} {mm : MinMax} (h : old.length = new.length) : Dom mm r (old ++ new) (Mealpy.zipBetter mm old new) :=
  Dom.zip (fun a b => (getBetterAgent_cases a b mm).2.1) (fun a b => (getBetterAgent_cases a b mm).2.2) h

theorem Dom.swap {a b l : List (Agent d K X)} {mm : MinMax} (h : Dom mm r (a ++ b) l) : Dom mm r (b ++ a) l :=
  Dom.append (fun x hx => h x (List.mem_append_right _ hx)) fun x hx => h x (List.mem_append_left _ hx)

namespace DevTPO

/-- as many branches as members of the population, each with the same number of leaves -/
def Grown (c : Cfg d K) (y : Vars d K) : Prop := y.total.length = c.popSize ∧ ∀ l ∈ y.total, l.length = leafs c

theorem keeper (hE : c.E.Lawful) (hP : c.P.Lawful) {p : Params K} : Keeper true (Grown c) (DevTPO.algo p : Algo c Unit (Vars d K)) := by
  refine ⟨fun o ho => Qb.initialNone hE (fun y => ?_) o (ho rfl), .pure, fun ep r q y hq hr hJ => ?_⟩
  · refine .bind (H := fun a => a.1) (Qb.iter (fun i (acc : List (Agent d K Unit) × List (List (Agent d K Unit))) => acc.2.length = i ∧ ∀ l ∈ acc.2, l.length = leafs c) ⟨rfl, by simp⟩
      fun i acc _ hacc => ?_) fun a ha => .pure ⟨ha, fun a ha => ⟨a, ha, NoWorse.rfl⟩⟩
    unfold branch
    refine .bind (Qb.generatePopulation hE hP) fun l hl => .bind0 (.liftDR (DT.bestT hE)) fun b hb => Qb.pure ⟨⟨⟨by simp [hacc.1], ?_⟩, ?_⟩, ?_⟩
    · intro t ht
      rcases List.mem_append.1 ht with h | h
      · exact hacc.2 t h
      · rw [List.mem_singleton.1 h]; exact hl
    · exact fun a ha => ⟨a, List.mem_append_left _ ha, NoWorse.rfl⟩
    · exact fun a ha => ⟨b, List.mem_append_right _ (List.mem_singleton.2 rfl), hb.2 a ha⟩
  · refine .bind (.iter (fun _ _ _ y => y.total.flatten) (fun _ _ _ y => Grown c y) .nil hJ fun i _ q y hi hy => ?_) fun _ q y hy => .bindExt <| ?_
    · refine .bindGet fun s _ hs _ => .bind0 (.drawR DT.nthT) fun ls hls => .bindDraw fun roots => .bindQ (Qt.buildEval hE) fun new hn => .modExt ?_
      rw [hs] at hls
      have hl : ls.length = leafs c := hy.2 ls (List.mem_of_getElem? hls)
      refine ⟨.flattenSet hls ?_, by simpa using hy.1, fun t ht => ?_⟩
      · unfold select
        split
        · exact (Dom.zipGreedy (by rw [hn, hl])).swap
        · exact (Dom.zipBetter (by rw [hn, hl])).swap
      · rcases List.mem_or_eq_of_mem_set ht with h | rfl
        · exact hy.2 t h
        · unfold select
          split <;> simp [Mealpy.zipGreedy, Mealpy.zipBetter, hn, hl]
    · refine .post (.iter (fun _ _ _ y => y.total.flatten) (fun i _ q y => Grown c y ∧ ∀ k, k < i → ∀ ls, y.total[k]? = some ls → ∃ b, q[k]? = some b ∧ ∀ a ∈ ls, NoWorse c.P.mm b.fit a.fit)
        .rfl ⟨hy, by simp⟩ fun i _ q y hi ⟨hy, hk⟩ => ?_) fun _ q y ⟨hy, hk⟩ => ⟨fun a ha => ?_, hy⟩
      · refine .bindGet fun s _ hs _ => .bind0 (.drawR DT.nthT) fun ls hls => .bind0 (.drawR (DT.bestT hE)) fun b hb => .setAt fun hl => ⟨.rfl, hy, fun k hk' t ht => ?_⟩
        rw [hs] at hls
        by_cases hki : k = i
        · subst hki
          rw [hls] at ht
          obtain rfl := Option.some.inj ht
          exact ⟨b, List.getElem?_set_self hl, hb.2⟩
        · obtain ⟨b', h1, h2⟩ := hk k (by omega) t ht
          exact ⟨b', by rw [List.getElem?_set_ne (by omega)]; exact h1, h2⟩
      · obtain ⟨t, ht, hat⟩ := List.mem_flatten.1 ha
        obtain ⟨k, hkl, rfl⟩ := List.getElem_of_mem ht
        obtain ⟨b, h1, h2⟩ := hk k (by rw [← hy.1]; exact hkl) _ (List.getElem?_eq_getElem hkl)
        exact ⟨b, List.mem_cons_of_mem _ (List.mem_append_left _ (List.mem_of_getElem? h1)), h2 a hat⟩

end DevTPO

namespace ImprovedTLO

/-- everyone: the teachers and their teams -/
abbrev all (y : Vars d K) : List (Agent d K Unit) := y.teachers ++ y.teams.flatten

theorem kp_session (hE : c.E.Lawful) {p i : Nat} {mk : Agent d K Unit → List (Agent d K Unit) → Nat → D c (Vec d K × Unit)} {r : Agent d K Unit} {q : List (Agent d K Unit)} {y : Vars d K} :
    Kp r q y (all y) (session p i mk : M c Unit (Vars d K) Unit) (fun _ _ y => all y) Any3 := by
  unfold session
  refine .bindGet fun s _ hs _ => .bindDraw fun teacher => .bind0 (.drawR DT.nthT) fun team ht => .bindQ (Qt.buildEval hE) fun new hn => .modExt ⟨?_, trivial⟩
  rw [hs] at ht
  have hz : Dom c.P.mm r (team ++ new) (select (c := c) team new) := by
    unfold select
    split
    · exact .zipGreedy hn.symm
    · exact (Dom.zipBetter hn).swap
  have := Dom.flattenSet ht hz
  refine .append (.append Dom.rfl.left ?_) ?_
  · exact Dom.right fun a ha => this a (List.mem_append_left _ ha)
  · exact Dom.right fun a ha => this a (List.mem_append_right _ ha)

theorem kp_promote (hE : c.E.Lawful) {i : Nat} {r : Agent d K Unit} {q : List (Agent d K Unit)} {y : Vars d K} :
    Kp r q y (all y) (promote i : M c Unit (Vars d K) Unit) (fun _ _ y => all y) Any3 := by
  unfold promote
  refine .bindGet fun s _ hs _ => .bind0 (.drawR DT.nthT) fun teacher hte => .bind0 (.drawR DT.nthT) fun team ht => .bind0 (.drawR (DT.sortedPop hE)) fun l hl => .bind0 (.drawR DT.nthT) fun b hb =>
    .modExt ⟨.sub fun a ha => ?_, trivial⟩
  rw [hs] at hte ht
  have hi := SARO.lt_of_some hte
  have hi' := SARO.lt_of_some ht
  have hb' : b ∈ y.teachers.set i b := List.mem_of_getElem? (List.getElem?_set_self hi)
  have hd' : ∀ a ∈ l.drop 1, a ∈ (y.teams.set i (l.drop 1)).flatten := fun a ha => List.mem_flatten.2 ⟨_, List.mem_of_getElem? (List.getElem?_set_self hi'), ha⟩
  have hl' : ∀ a ∈ l, a ∈ y.teachers.set i b ++ (y.teams.set i (l.drop 1)).flatten := fun a ha => by
    cases l with
    | nil => cases ha
    | cons e t =>
      rcases List.mem_cons.1 ha with rfl | ha
      · obtain rfl : a = b := Option.some.inj hb
        exact List.mem_append_left _ hb'
      · exact List.mem_append_right _ (hd' a ha)
  rcases List.mem_append.1 ha with h | h
  · obtain ⟨k, hk, rfl⟩ := List.getElem_of_mem h
    by_cases hki : k = i
    · subst hki
      rw [List.getElem?_eq_getElem hk] at hte
      exact hl' _ ((hl.2 _).2 (List.mem_append_right _ (List.mem_singleton.2 (Option.some.inj hte))))
    · exact List.mem_append_left _ (List.mem_of_getElem? (i := k) (by rw [List.getElem?_set_ne (by omega), List.getElem?_eq_getElem hk]))
  · obtain ⟨t, htm, hat⟩ := List.mem_flatten.1 h
    obtain ⟨k, hk, rfl⟩ := List.getElem_of_mem htm
    by_cases hki : k = i
    · subst hki
      rw [List.getElem?_eq_getElem hk] at ht
      rw [Option.some.inj ht] at hat
      exact hl' _ ((hl.2 _).2 (List.mem_append_left _ hat))
    · exact List.mem_append_right _ (List.mem_flatten.2 ⟨y.teams[k], List.mem_of_getElem? (i := k) (by rw [List.getElem?_set_ne (by omega), List.getElem?_eq_getElem hk]), hat⟩)

theorem keeper (hE : c.E.Lawful) (hP : c.P.Lawful) {p : Nat} : Keeper false Free (ImprovedTLO.algo p : Algo c Unit (Vars d K)) := by
  refine .custom hE (fun y l hl => ?_) fun ep r q y => ?_
  · exact .bind (Qb.startPop hE hP hl) fun pop hpop => .bind0 .liftD fun _ _ => .bind0 .liftD fun _ _ => .bind0 .liftD fun _ _ =>
      .pure ⟨fun a ha => ⟨a, hpop.2 a ha, NoWorse.rfl⟩, fun a ha => ⟨a, ha, NoWorse.rfl⟩⟩
  · refine .bind (.iter (fun _ _ _ y => all y) (fun _ => Any3) .nil trivial fun i _ q y _ _ => kp_session hE) fun _ q y _ =>
      .bind (.iter (fun _ _ _ y => all y) (fun _ => Any3) .rfl trivial fun i _ q y _ _ => .bindDraw fun u => kp_session hE) fun _ q y _ =>
      .bind (.iter (fun _ _ _ y => all y) (fun _ => Any3) .rfl trivial fun i _ q y _ _ => kp_promote hE) fun _ q y _ => .bindGet fun s _ hs _ => .replace ?_
    rw [hs]
    exact .rfl

end ImprovedTLO

namespace OriginalCRO

/-- the members at occupied places -/
def corals (q : List (Agent d K Unit)) (y : Reef K) : List (Agent d K Unit) := y.occ.filterMap (fun i => q[i]?)

theorem corals_mem {q : List (Agent d K Unit)} {y : Reef K} {a : Agent d K Unit} (h : a ∈ corals q y) : ∃ i ∈ y.occ, q[i]? = some a := by
  obtain ⟨i, hi, h⟩ := List.mem_filterMap.1 h
  exact ⟨i, hi, h⟩

theorem mem_corals {q : List (Agent d K Unit)} {y : Reef K} {a : Agent d K Unit} {i : Nat} (hi : i ∈ y.occ) (h : q[i]? = some a) : a ∈ corals q y :=
  List.mem_filterMap.2 ⟨i, hi, h⟩

theorem corals_pop {q : List (Agent d K Unit)} {y : Reef K} {r : Agent d K Unit} {mm : MinMax} : Dom mm r (corals q y) q :=
  .sub fun a ha => by
    obtain ⟨i, -, h⟩ := corals_mem ha
    exact List.mem_of_getElem? h

/-- a larva settles: at an occupied place it must be better than the coral there -/
theorem corals_set {q : List (Agent d K Unit)} {y y' : Reef K} {r a : Agent d K Unit} {mm : MinMax} {i : Nat} (hi : i < q.length) (hy : ∀ j ∈ y.occ, j ∈ y'.occ) (hi' : i ∈ y'.occ)
    (h : i ∈ y.occ → ∀ old, q[i]? = some old → NoWorse mm a.fit old.fit) : Dom mm r (corals q y ++ [a]) (corals (q.set i a) y') := by
  have ha : a ∈ corals (q.set i a) y' := mem_corals hi' (List.getElem?_set_self hi)
  refine .append (fun b hb => ?_) (.one ha NoWorse.rfl)
  obtain ⟨j, hj, hbj⟩ := corals_mem hb
  by_cases hji : j = i
  · subst hji
    exact ⟨a, List.mem_cons_of_mem _ ha, h hj b hbj⟩
  · exact ⟨b, List.mem_cons_of_mem _ (mem_corals (hy j hj) (by rw [List.getElem?_set_ne (by omega)]; exact hbj)), NoWorse.rfl⟩

theorem kp_settle {p : Params K} (hp : 1 ≤ p.trials) {ls : List (Agent d K Unit)} {r : Agent d K Unit} {q : List (Agent d K Unit)} {y : Reef K} {G : List (Agent d K Unit)}
    (hd : Dom c.P.mm r G (corals q y ++ ls)) : Kp r q y G (settle p ls : M c Unit (Reef K) Unit) (fun _ q y => corals q y) Any3 := by
  unfold settle
  refine .post (.iter (fun k _ q y => corals q y ++ ls.drop k) (fun _ => Any3) hd trivial fun k _ q y hk _ => ?_) fun _ q y _ => ⟨?_, trivial⟩
  · refine .bind0 (.drawR DT.nthT) fun larva hl => .bind (F := fun _ q y => corals q y ++ ls.drop (k + 1)) (R := Any3) ?_ fun _ q y _ => .pure .rfl trivial
    refine .post (.iter (fun j _ q y => corals q y ++ ls.drop (k + 1) ++ (if j = 0 then [larva] else [])) (fun j done _ _ => j = 0 → done = false) ?_ (fun _ => rfl)
      fun j done q y hj hdone => ?_) fun _ q y _ => ⟨?_, trivial⟩
    · rw [List.drop_eq_getElem_cons hk]
      rw [List.getElem?_eq_getElem hk] at hl
      rw [Option.some.inj hl]
      exact .sub fun a ha => by
        simp only [List.mem_append, List.mem_cons, if_true] at ha ⊢
        tauto
    · have hset : ∀ (i : Nat) (y' : Reef K) (G' : List (Agent d K Unit)), Dom c.P.mm r (corals q y ++ [larva]) (corals G' y') →
          Dom c.P.mm r (corals q y ++ ls.drop (k + 1) ++ (if j = 0 then [larva] else [])) (corals G' y' ++ ls.drop (k + 1) ++ (if j + 1 = 0 then [larva] else [])) := by
        intro i y' G' h
        rw [if_neg (by omega : ¬ j + 1 = 0), List.append_nil]
        refine .append (.append (Dom.left fun a ha => h a (List.mem_append_left _ ha)) Dom.rfl.right) ?_
        split
        · exact Dom.left fun a ha => h a (List.mem_append_right _ ha)
        · exact .nil
      refine .ite (fun hd => ?_) fun hd => .bindDraw fun i => .bindGet fun s _ hs _ => .ite (fun hocc => .bindPop fun old ho => .ite (fun h => ?_) fun h => ?_) fun hocc => ?_
      · have hj0 : j ≠ 0 := fun h0 => by rw [hdone h0] at hd; cases hd
        rw [if_neg hj0]
        exact .pure (by rw [if_neg (by omega)]; exact .rfl) (by omega)
      · rw [hs] at hocc
        exact .bindSetAt fun hi => .pure (hset i y _ (corals_set hi (fun _ h => h) hocc fun _ old' ho' => by
          rw [ho] at ho'
          obtain rfl := Option.some.inj ho'
          exact compareTarget_true h)) (by omega)
      · rw [hs] at hocc
        refine .pure (hset i y _ (.append .rfl (.one (mem_corals hocc ho) (compareTarget_false (by simpa using h))))) (by omega)
      · rw [hs] at hocc
        refine .bindSetAt fun hi => .bindExt <| .pure (hset i _ _ (corals_set hi (fun j hj => ?_) ?_ fun h => absurd h hocc)) (by omega)
        · unfold take
          split
          · exact hj
          · exact List.mem_append_left _ hj
        · unfold take
          split
          · assumption
          · exact List.mem_append_right _ (List.mem_singleton.2 rfl)
    · rw [if_neg (by omega), List.append_nil]
      exact .rfl
  · rw [List.drop_length, List.append_nil]
    exact .rfl

theorem qb_init (hE : c.E.Lawful) (hP : c.P.Lawful) {p : Params K} {y : Reef K} {l : Option (List (Agent d K Unit))} (hl : Given c l) :
    Qb (initialization p y l : B c _) (fun r => r.1) (fun r => ∀ a ∈ l.getD [], ∃ e ∈ r.1, NoWorse c.P.mm e.fit a.fit) :=
  .bind (Qb.startPop hE hP hl) fun pop hpop => .bind0 .liftD fun _ _ => .pure ⟨fun a ha => ⟨a, hpop.2 a ha, NoWorse.rfl⟩, fun a ha => ⟨a, ha, NoWorse.rfl⟩⟩

theorem keeper (hE : c.E.Lawful) (hP : c.P.Lawful) {p : Params K} (hp : 1 ≤ p.trials) : Keeper false Free (OriginalCRO.algo p : Algo c Unit (Reef K)) :=
  .custom hE (fun y l hl => qb_init hE hP hl) fun ep r q y => .bindGet fun s _ _ _ => .bindDraw fun pend => .bindQ (Qt.evalAll hE) fun ls _ =>
    .bind (kp_settle hp (.append .nil Dom.rfl.right)) fun _ q y _ => .bindGet fun s _ _ _ => .bind (kp_settle hp Dom.rfl.left) fun _ q y _ => .bindDraw fun u => .bindGet fun s _ _ _ =>
    .bind (F := fun _ q _ => q ++ []) (R := Any3) (.ite (fun _ => .modExt ⟨corals_pop.left, trivial⟩) fun _ => .pure corals_pop.left trivial) fun _ q y _ => .modExt ⟨.rfl, trivial⟩

end OriginalCRO

namespace OCRO
open OriginalCRO (Reef corals corals_pop kp_settle)

theorem kp_resist {ids : List Nat} {r : Agent d K Unit} {q : List (Agent d K Unit)} {y : Reef K} {G : List (Agent d K Unit)} (hd : Dom c.P.mm r G (q ++ [])) :
    Kp r q y G (resist ids : M c Unit (Reef K) Unit) (InPop []) Any3 :=
  .iter (fun _ => InPop []) (fun _ => Any3) hd trivial fun i _ q y _ _ => .bindDraw fun _ => .bindGet fun s _ _ _ => .bindPop fun a ha => .bindDraw fun _ => .bindQ Qt.agentOf fun new _ =>
    .ite (fun h => .setBest ha (compareTarget_true h) NoWorse.rfl .rfl) fun h => .modExt ⟨.append .rfl (.one (List.mem_append_left _ (List.mem_of_getElem? ha))
      (compareTarget_false (by simpa using h))), trivial⟩

theorem keeper (hE : c.E.Lawful) (hP : c.P.Lawful) {p : Params K} (hp : 1 ≤ p.base.trials) (hr : 1 ≤ p.restart) : Keeper false Free (OCRO.algo p : Algo c Unit (Reef K)) := by
  refine .custom hE (fun y l hl => OriginalCRO.qb_init hE hP hl) fun ep r q y => .bindGet fun s _ _ _ => .bindDraw fun pend => .bindQ (Qt.evalAll hE) fun ls _ =>
    .bind (kp_settle hp (.append .nil Dom.rfl.right)) fun _ q y _ => .bindGet fun s _ _ _ => .bindQ (Qt.buildEval hE) fun near _ => .bind (kp_settle hp .rfl) fun _ q y _ =>
    .bindDraw fun u => .bindGet fun s _ _ _ =>
    .bind (F := fun _ q _ => q ++ []) (R := Any3) (.ite (fun _ => kp_resist corals_pop.left) fun _ => .pure corals_pop.left trivial) fun _ q y _ => .bindExt <|
    .bindGet fun s hs hy hg => .bind0 (.drawR (DT.bestT hE)) fun best hb =>
    .bind (F := fun _ q _ => q ++ []) (R := fun _ q' y' => y'.reset = 0 ∨ ∀ a ∈ q', NoWorse c.P.mm r.fit a.fit) (.ite (fun _ => .modExt ⟨.rfl, .inl rfl⟩) fun h => .pure .rfl (.inr fun a ha => ?_))
    fun _ q y h => .bindGet fun s _ hy' _ => .ite (fun he => ?_) fun _ => .pure .rfl trivial
  · rw [hs] at hb
    have := compareTarget_false (show compareTarget best.tgt s.gbest.tgt c.P.mm = false by simpa using h)
    rw [hg] at this
    exact NoWorse.trans this (hb.2 a ha)
  · rw [hy'] at he
    have hall : ∀ a ∈ q, NoWorse c.P.mm r.fit a.fit := by
      rcases h with h | h
      · omega
      · exact h
    refine .pre (G' := []) (.append (.all List.mem_cons_self hall) .nil) (.bindQ (Qt.liftB (Qb.generatePopulation hE hP)) fun pop _ => .bindSetPop <| .bindDraw fun _ => .modExt ⟨Dom.left .rfl, trivial⟩)

end OCRO

/-- before the main loop there are only draws -/
theorem Calm.draws {J : Y → Prop} {f : St c X Y → D c α} : Calm J (do let s ← MonadState.get; let _ ← Mealpy.draw (f s); Pure.pure () : M c X Y Unit) := fun s hs => by
  cases hd : f s (s.base.rng, s.base.vg) with
  | error e =>
    refine Wp.of_err (e := e) ?_ trivial
    simp only [Mealpy.draw, Mealpy.liftB, liftD, bind, StateT.bind, Except.bind, get, getThe, MonadState.get, MonadStateOf.get, StateT.get, Pure.pure, Except.pure, hd]
  | ok v =>
    refine Wp.of_ok (a := ()) (s' := { s with base := { s.base with rng := v.2.1, vg := v.2.2 } }) ?_ ⟨rfl, rfl, rfl, rfl, hs⟩
    simp only [Mealpy.draw, Mealpy.liftB, liftD, bind, StateT.bind, Except.bind, get, getThe, MonadState.get, MonadStateOf.get, StateT.get, Pure.pure, StateT.pure, Except.pure, hd]

theorem DS_GWO.keeper (hE : c.E.Lawful) (hP : c.P.Lawful) {p : DS_GWO.Params K} : Keeper false Free (DS_GWO.algo p : Algo c Unit Unit) :=
  ⟨fun o _ => Qb.initial hE (fun y p _ => Qb.defaultInit hE hP) o, .draws, fun ep r q y _ _ _ => .pure .nil trivial⟩

namespace OriginalSSpiderO

theorem dt_reweighT {pop : List (Agent d K K)} {r : Agent d K K} : DT (fun _ => True) (reweigh pop : D c _) (fun l => l.length = pop.length ∧ ∀ k (hk : k < pop.length) (hk' : k < l.length), l[k].fit = pop[k].fit) := by
  unfold reweigh
  dsimp only
  unfold Mealpy.repM
  refine DT.mono (DT.iter (fun i (l : List (Agent d K K)) => l.length = i ∧ ∀ k (hk : k < pop.length) (hk' : k < l.length), l[k].fit = pop[k].fit) pop.length ⟨rfl, fun k _ hk' => by simp at hk'⟩
    fun i l hi hl => ?_) fun l h => h
  refine DT.bind (R := fun a : Agent d K K => a.fit = pop[i].fit) ?_ fun a ha => DT.pure ⟨by simp [hl.1], fun k hk hk' => ?_⟩
  · refine DT.bind DT.nthT fun a ha => DT.bind (R := fun _ => True) DT.any fun w _ => DT.pure ?_
    rw [List.getElem?_eq_getElem hi] at ha
    rw [Option.some.inj ha]
    rfl
  · rw [List.getElem_append]
    split
    · exact hl.2 k hk _
    · have : k = i := by simp [hl.1] at hk'; omega
      subst this
      simpa using ha

/-- the same fitness values at the same places -/
theorem Dom.same {l l' : List (Agent d K X)} {mm : MinMax} (h : l'.length = l.length ∧ ∀ k (hk : k < l.length) (hk' : k < l'.length), l'[k].fit = l[k].fit) : Dom mm r l l' := fun a ha => by
  obtain ⟨k, hk, rfl⟩ := List.getElem_of_mem ha
  exact ⟨l'[k], List.mem_cons_of_mem _ (List.getElem_mem _), by rw [h.2 k hk (by omega)]; exact NoWorse.rfl⟩

theorem moveFemales_len {ep : Nat} {best : Agent d K K} {fem mal : List (Agent d K K)} : DT (fun _ => True) (moveFemales ep best fem mal : D c _) (fun l => l.length = fem.length) := by
  unfold moveFemales
  refine DT.iter (fun _ (l : List (Agent d K K)) => l.length = fem.length) _ rfl fun i l hi hl => ?_
  unfold moveFemale
  dsimp only
  refine DT.bind (R := fun _ => True) DT.any fun x _ => DT.bind (R := fun _ => True) DT.any fun _ _ => DT.bind (R := fun _ => True) DT.any fun _ _ => DT.bind (R := fun _ => True) DT.any fun _ _ =>
    DT.bind (R := fun _ => True) DT.any fun _ _ => DT.bind (R := fun _ => True) DT.any fun _ _ => DT.bind (R := fun _ => True) DT.any fun _ _ => DT.bind (R := fun _ => True) DT.any fun pos hp =>
    DT.pure (by rw [List.length_set]; exact hl)

theorem qt_mating (hE : c.E.Lawful) (hP : c.P.Lawful) {fem mal : List (Agent d K K)} :
    Qt (mating fem mal : M c K (Vars d K) _) (fun l => l) (fun l => c.popSize ≤ l.length) := by
  unfold mating
  dsimp only
  refine .bindDraw fun pend => .bind (Qt.evalAll hE) fun kids hk => .bind (Qt.liftB (Qb.generatePopulation hE hP)) fun more hm => Qt.pure ⟨⟨?_, ?_⟩, ?_⟩
  · rw [List.length_append, hk, hm]; omega
  · exact fun a ha => ⟨a, List.mem_append_left _ ha, NoWorse.rfl⟩
  · exact fun a ha => ⟨a, List.mem_append_right _ ha, NoWorse.rfl⟩

/-- the females and the males are as many as the population -/
def Whole (c : Cfg d K) (y : Vars d K) : Prop := y.fem.length + y.mal.length = c.popSize

theorem sorted_take {l kids : List (Agent d K K)} {n : Nat} {r : Agent d K K} (hn : 0 < n ∨ kids = [])
    (hl : l.length = kids.length ∧ (∀ a, a ∈ l ↔ a ∈ kids) ∧ l.Pairwise (fun a b => NoWorse c.P.mm a.fit b.fit)) : Dom c.P.mm r kids (l.take n) := fun a ha => by
  have hal := (hl.2.1 a).2 ha
  cases l with
  | nil => cases hal
  | cons b l =>
    have hn : 0 < n := by
      rcases hn with h | h
      · exact h
      · rw [h] at ha; cases ha
    refine ⟨b, List.mem_cons_of_mem _ ?_, ?_⟩
    · cases n with
      | zero => omega
      | succ n => exact List.mem_cons_self
    · rcases List.mem_cons.1 hal with rfl | h
      · exact NoWorse.rfl
      · exact (List.pairwise_cons.1 hl.2.2).1 a h

theorem keeper (hE : c.E.Lawful) (hP : c.P.Lawful) {p : Params K} (h0 : 0 < c.popSize) : Keeper false (Whole c) (OriginalSSpiderO.algo p : Algo c K (Vars d K)) := by
  refine ⟨fun o _ => Qb.initial hE (fun y l hl => ?_) o, .pure, fun ep r q y hq hr hJ => ?_⟩
  · refine .bind0 .liftD fun u _ => .bind0 (.liftDR (DT.choiceT hE)) fun idm hm => .bind0 (.liftDR (DT.inSomeOrder hE)) fun idf hidf => .bind (Qb.startPop hE hP hl) fun pop hpop => ?_
    refine .bind0 (R := fun new : List (Agent d K K) => new.length = pop.length ∧ ∀ k (hk : k < pop.length) (hk' : k < new.length), new[k].fit = pop[k].fit) (.liftDR fun g => ?_)
      fun new hnew => .pure ⟨⟨?_, ?_⟩, ?_⟩
    · by_cases h0 : pop = []
      · subst h0
        exact Wp.mono (DT.mono (DT.repM (Q := fun _ => True) fun _ _ => DT.any) (fun l h => (⟨h.1, fun k hk => by simp at hk⟩ : l.length = 0 ∧ _)) g) fun _ _ h => h
      · exact dt_reweighT (r := pop.head h0) g
    · have hlen : new.length = c.popSize := hnew.1.trans hpop.1
      have hlf := rangeWithout_length_eq hm.2.2 hm.2.1
      show _ + _ = _
      rw [lookup_all (l := idf) fun i hi => by
          rw [hlen]
          exact List.mem_range.1 (List.mem_filter.1 ((hidf.mem_iff).1 hi)).1,
        lookup_all (l := idm) fun i hi => by rw [hlen]; exact hm.2.1 i hi, hidf.length_eq]
      exact hlf
    · intro a ha
      obtain ⟨k, hk, rfl⟩ := List.getElem_of_mem (hpop.2 a ha)
      exact ⟨new[k]'(by omega), List.getElem_mem _, by rw [hnew.2 k hk (by omega)]; exact NoWorse.rfl⟩
    · intro a ha
      obtain ⟨k, hk, rfl⟩ := List.getElem_of_mem ha
      exact ⟨new[k]'(by omega), List.getElem_mem _, by rw [hnew.2 k hk (by omega)]; exact NoWorse.rfl⟩
  · refine .bindGet fun s _ hs _ => .bind0 (.drawR moveFemales_len) fun moved hmoved => .bindQ (Qt.evalAll hE) fun fem hfem => ?_
    dsimp only
    refine .bind0 (.drawR (DT.repMT fun _ _ => DT.any)) fun pend hpend => .bindQ (Qt.evalAll hE) fun mal hmal => .bind0 (.drawR (dt_reweighT (r := r))) fun pop hpop =>
      .bindQ (qt_mating hE hP) fun kids hkids => .bind0 (.drawR (DT.sortedPop' hE)) fun sorted hsorted => ?_
    rw [List.length_map, hmoved, hs] at hfem
    rw [hpend, hs] at hmal
    have hpl : pop.length = c.popSize := by rw [hpop.1, List.length_append, hfem, hmal]; exact hJ
    refine .bind0 (.drawR (dt_reweighT (r := r))) fun new hnew => .bindSetPop <| .modExt ?_
    have hzl : (List.zipWith (fun (k a : Agent d K K) => if compareTarget k.tgt a.tgt c.P.mm then k else a) (sorted.take pop.length) pop).length = pop.length := by
      simp [hsorted.1]; omega
    have hnl : new.length = pop.length := hnew.1.trans hzl
    refine ⟨?_, ?_⟩
    · refine Dom.left ?_
      refine Dom.trans ?_ (Dom.same hnew)
      refine Dom.trans (H := sorted.take pop.length ++ pop) ?_ (Dom.zip (fun k a => ?_) (fun k a => ?_) (by simp [hsorted.1]; omega))
      · refine .append (.append (.append .nil ?_) ?_) ?_
        · exact Dom.right fun a ha => Dom.same (r := r) (mm := c.P.mm) hpop a (List.mem_append_left _ ha)
        · exact Dom.right fun a ha => Dom.same (r := r) (mm := c.P.mm) hpop a (List.mem_append_right _ ha)
        · refine Dom.left (sorted_take ?_ hsorted)
          exact .inl (by omega)
      · split
        · exact NoWorse.rfl
        · rename_i h
          exact compareTarget_false (by simpa using h)
      · split
        · rename_i h
          exact compareTarget_true h
        · exact NoWorse.rfl
    · show _ + _ = _
      simp only [List.length_take, List.length_drop, List.length_zipWith, List.length_zip, hnl, hsorted.1, hpl]
      have : fem.length ≤ c.popSize := by rw [hfem]; have := hJ; unfold Whole at this; omega
      omega

end OriginalSSpiderO

end Mealpy
