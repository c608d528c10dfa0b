import Verif.Alg.Cover
import Verif.Climb
import Verif.Alg.Kit5
import Verif.Alg.Kit11

/-!
# Epochs that keep what they evaluate

`Kp r q y G m F R`: let `r` be the best agent on record when the epoch starts, and let `m` run from the population `q` and the attributes
`y` while every point evaluated so far is covered by `r` or by an agent of `G`.  Then, if `m` returns `a`, every point evaluated by then is
covered by `r` or by an agent of `F a q' y'`, where `q'` and `y'` are the population and the attributes afterwards, and `R a q' y'` holds.
An exception ends the run, so nothing is asked of it.
-/

set_option linter.unusedSectionVars false
set_option linter.unusedVariables false

namespace Mealpy
open Spec

variable {d : Nat} {K : Type} [Num K] {c : Cfg d K} {X Y α β : Type}

/-- `r` is the best agent, the record has not got worse than `r`, and `r` or an agent of `G` covers each evaluated point -/
structure Saved (r : Agent d K X) (G : List (Agent d K X)) (s : St c X Y) : Prop where
  gbest : s.gbest = r
  record : ∃ g, s.hist.globalBest.getLast? = some g ∧ NoWorse c.P.mm g.fit r.fit
  log : ∀ x ∈ s.base.log, ∃ a ∈ r :: G, NoWorse c.P.mm a.fit (c.P.target x).fitness

/-- every agent of `G` is covered by `r` or by an agent of `H` -/
def Dom (mm : MinMax) (r : Agent d K X) (G H : List (Agent d K X)) : Prop := ∀ a ∈ G, ∃ b ∈ r :: H, NoWorse mm b.fit a.fit

section dom
variable {mm : MinMax} {r : Agent d K X} {G H L : List (Agent d K X)}

theorem Dom.sub (h : ∀ a ∈ G, a ∈ H) : Dom mm r G H := fun a ha => ⟨a, List.mem_cons_of_mem _ (h a ha), NoWorse.rfl⟩

theorem Dom.nil : Dom mm r [] H := fun _ h => by cases h

theorem Dom.rfl : Dom mm r G G := Dom.sub fun _ h => h

theorem Dom.trans (h : Dom mm r G H) (h' : Dom mm r H L) : Dom mm r G L := by
  intro a ha
  obtain ⟨b, hb, hn⟩ := h a ha
  rcases List.mem_cons.1 hb with rfl | hb
  · exact ⟨b, List.mem_cons_self, hn⟩
  · obtain ⟨e, he, hn'⟩ := h' b hb
    exact ⟨e, he, hn'.trans hn⟩

theorem Dom.append (h : Dom mm r G L) (h' : Dom mm r H L) : Dom mm r (G ++ H) L := by
  intro a ha
  rcases List.mem_append.1 ha with ha | ha
  · exact h a ha
  · exact h' a ha

theorem Dom.left (h : Dom mm r G H) : Dom mm r G (H ++ L) := h.trans (.sub fun _ h => List.mem_append_left _ h)

theorem Dom.right (h : Dom mm r G H) : Dom mm r G (L ++ H) := h.trans (.sub fun _ h => List.mem_append_right _ h)

theorem Dom.one {a b : Agent d K X} (hb : b ∈ H) (hn : NoWorse mm b.fit a.fit) : Dom mm r [a] H := by
  intro e he
  rw [List.mem_singleton.1 he]
  exact ⟨b, List.mem_cons_of_mem _ hb, hn⟩

theorem Dom.oneR {a : Agent d K X} (hn : NoWorse mm r.fit a.fit) : Dom mm r [a] H := by
  intro e he
  rw [List.mem_singleton.1 he]
  exact ⟨r, List.mem_cons_self, hn⟩

/-- one agent that is at least as good as all of them -/
theorem Dom.all {b : Agent d K X} (hb : b ∈ r :: H) (hn : ∀ a ∈ G, NoWorse mm b.fit a.fit) : Dom mm r G H := fun a ha => ⟨b, hb, hn a ha⟩

/-- replacing an agent by one that is no worse -/
theorem Dom.set {i : Nat} {old a : Agent d K X} (ho : G[i]? = some old) (hn : NoWorse mm a.fit old.fit) : Dom mm r G (G.set i a) := by
  intro e he
  obtain ⟨k, hk, rfl⟩ := List.getElem_of_mem he
  obtain ⟨hi, ho⟩ := List.getElem?_eq_some_iff.1 ho
  by_cases h : i = k
  · subst h
    exact ⟨a, List.mem_cons_of_mem _ (List.mem_set hi a), by rw [ho]; exact hn⟩
  · exact ⟨G[k], List.mem_cons_of_mem _ (List.mem_iff_getElem.2 ⟨k, by simpa using hk, by rw [List.getElem_set_of_ne h]⟩), NoWorse.rfl⟩

/-- an agent tried for a slot -/
theorem Dom.slot {i : Nat} {old a b : Agent d K X} (ho : G[i]? = some old) (hn : NoWorse mm b.fit old.fit) (hn' : NoWorse mm b.fit a.fit) :
    Dom mm r (G ++ H ++ [a]) (G.set i b ++ H) := by
  refine .append (.append (Dom.set ho hn).left (Dom.rfl.right)) (.one (List.mem_append_left _ ?_) hn')
  exact List.mem_set (List.getElem?_eq_some_iff.1 ho).1 b

theorem Dom.perm (h : G.Perm H) : Dom mm r G H := .sub fun _ ha => h.mem_iff.1 ha

theorem Dom.mapFit {f : Agent d K X → Agent d K X} (h : ∀ a, (f a).fit = a.fit) : Dom mm r G (G.map f) := fun a ha =>
  ⟨f a, List.mem_cons_of_mem _ (List.mem_map_of_mem ha), by rw [h]; exact NoWorse.rfl⟩

theorem Dom.zip {f : Agent d K X → Agent d K X → Agent d K X} (hf : ∀ o n, NoWorse mm (f o n).fit o.fit) (hf' : ∀ o n, NoWorse mm (f o n).fit n.fit)
    (hl : G.length = H.length) : Dom mm r (G ++ H) (List.zipWith f G H) := by
  have hz : ∀ k (h1 : k < G.length) (h2 : k < H.length), f G[k] H[k] ∈ List.zipWith f G H := fun k h1 h2 =>
    List.mem_iff_getElem.2 ⟨k, by simp; omega, by simp⟩
  refine .append ?_ ?_
  · intro e he
    obtain ⟨k, hk, rfl⟩ := List.getElem_of_mem he
    exact ⟨_, List.mem_cons_of_mem _ (hz k hk (by omega)), hf _ _⟩
  · intro e he
    obtain ⟨k, hk, rfl⟩ := List.getElem_of_mem he
    exact ⟨_, List.mem_cons_of_mem _ (hz k (by omega) hk), hf' _ _⟩

end dom

theorem Dom.trim (hE : c.E.Lawful) {r : Agent d K X} {l : List (Agent d K X)} {n : Nat} (hn : 0 < n) :
    Dom c.P.mm r l (getSortedTrimmed c.E.argsort l n c.P.mm) := by
  intro a ha
  obtain ⟨b, hb, h⟩ := trimmed_cover hE (l := l) (n := n) hn ha
  exact ⟨b, List.mem_cons_of_mem _ hb, h⟩

theorem Saved.dom {r : Agent d K X} {G H : List (Agent d K X)} {s : St c X Y} (h : Saved r G s) (hd : Dom c.P.mm r G H) : Saved r H s :=
  ⟨h.gbest, h.record, fun x hx => by
    obtain ⟨a, ha, hn⟩ := h.log x hx
    rcases List.mem_cons.1 ha with rfl | ha
    · exact ⟨a, List.mem_cons_self, hn⟩
    · obtain ⟨b, hb, hn'⟩ := hd a ha
      exact ⟨b, hb, hn'.trans hn⟩⟩

/-! ## code that touches neither the population nor the attributes -/

/-- `m` leaves population, attributes, best agent and record alone, evaluates only points covered by `H a`, and returns something with `R` -/
def Qt (m : M c X Y α) (H : α → List (Agent d K X)) (R : α → Prop) : Prop := ∀ s, Wp (fun _ => True) m s (fun a s' =>
  s'.pop = s.pop ∧ s'.ext = s.ext ∧ s'.gbest = s.gbest ∧ s'.hist = s.hist ∧
    (∃ xs, s'.base.log = s.base.log ++ xs ∧ ∀ x ∈ xs, ∃ b ∈ H a, NoWorse c.P.mm b.fit (c.P.target x).fitness) ∧ R a)

/-- the same for code that evaluates and generates -/
def Qb (m : B c α) (H : α → List (Agent d K X)) (R : α → Prop) : Prop := ∀ b, Wp (fun _ => True) m b (fun a b' =>
  (∃ xs, b'.log = b.log ++ xs ∧ ∀ x ∈ xs, ∃ e ∈ H a, NoWorse c.P.mm e.fit (c.P.target x).fitness) ∧ R a)

section qt
variable {H : α → List (Agent d K X)} {R : α → Prop} {H' : β → List (Agent d K X)} {R' : β → Prop}

theorem Qt.pure {a : α} (h : R a) : Qt (pure a : M c X Y α) H R := fun s => Wp.pure ⟨rfl, rfl, rfl, rfl, ⟨[], by simp, by simp⟩, h⟩

theorem Qt.draw {m : D c α} : Qt (Mealpy.draw m : M c X Y α) (fun _ => []) Any := fun s =>
  Wp.draw DT.any fun a r v _ => ⟨rfl, rfl, rfl, rfl, ⟨[], by simp, by simp⟩, trivial⟩

theorem Qt.drawR {m : D c α} (h : DT (fun _ => True) m R) : Qt (Mealpy.draw m : M c X Y α) (fun _ => []) R := fun s =>
  Wp.draw h fun a r v h => ⟨rfl, rfl, rfl, rfl, ⟨[], by simp, by simp⟩, h⟩

theorem Qt.liftB {m : B c α} (h : Qb m H R) : Qt (Mealpy.liftB m : M c X Y α) H R := fun s =>
  Wp.liftB (Wp.mono (h s.base) fun a b hb => ⟨rfl, rfl, rfl, rfl, hb.1, hb.2⟩)

theorem Qt.mthrow {e : Err} : Qt (mthrow e : M c X Y α) H R := fun _ => trivial

theorem Qt.get {H : St c X Y → List (Agent d K X)} : Qt (get : M c X Y _) H Any := fun s =>
  Wp.get ⟨rfl, rfl, rfl, rfl, ⟨[], by simp, by simp⟩, trivial⟩

theorem Qt.mono {H2 : α → List (Agent d K X)} {R2 : α → Prop} {m : M c X Y α} (h : Qt m H R) (hH : ∀ a, R a → ∀ b ∈ H a, ∃ e ∈ H2 a, NoWorse c.P.mm e.fit b.fit)
    (hR : ∀ a, R a → R2 a) : Qt m H2 R2 := fun s => Wp.mono (h s) fun a s' ⟨h1, h2, h3, h4, ⟨xs, h5, h6⟩, h7⟩ =>
  ⟨h1, h2, h3, h4, ⟨xs, h5, fun x hx => by
    obtain ⟨b, hb, hn⟩ := h6 x hx
    obtain ⟨e, he, hn'⟩ := hH a h7 b hb
    exact ⟨e, he, hn'.trans hn⟩⟩, hR a h7⟩

theorem Qt.weak {R2 : α → Prop} {m : M c X Y α} (h : Qt m H R) (hR : ∀ a, R a → R2 a) : Qt m H R2 := h.mono (fun a _ b hb => ⟨b, hb, NoWorse.rfl⟩) hR

/-- what the first part evaluates must be covered by what the second part returns -/
theorem Qt.bind {m : M c X Y α} {f : α → M c X Y β} (h : Qt m H R) (h' : ∀ a, R a → Qt (f a) H' (fun b => R' b ∧ ∀ x ∈ H a, ∃ e ∈ H' b, NoWorse c.P.mm e.fit x.fit)) :
    Qt (m >>= f) H' R' := fun s => Wp.bind (Wp.mono (h s) fun a s1 ⟨h1, h2, h3, h4, ⟨xs, h5, h6⟩, h7⟩ =>
  Wp.mono (h' a h7 s1) fun b s2 ⟨k1, k2, k3, k4, ⟨ys, k5, k6⟩, k7, k8⟩ => ⟨k1.trans h1, k2.trans h2, k3.trans h3, k4.trans h4,
    ⟨xs ++ ys, by rw [k5, h5, List.append_assoc], fun x hx => by
      rcases List.mem_append.1 hx with hx | hx
      · obtain ⟨e, he, hn⟩ := h6 x hx
        obtain ⟨e', he', hn'⟩ := k8 e he
        exact ⟨e', he', hn'.trans hn⟩
      · exact k6 x hx⟩, k7⟩)

/-- the first part evaluates nothing -/
theorem Qt.bind0 {m : M c X Y α} {f : α → M c X Y β} (h : Qt m (fun _ => []) R) (h' : ∀ a, R a → Qt (f a) H' R') : Qt (m >>= f) H' R' :=
  Qt.bind h fun a ha => (h' a ha).weak fun b hb => ⟨hb, by simp⟩

theorem Qt.bindDraw {m : D c α} {f : α → M c X Y β} (h' : ∀ a, Qt (f a) H' R') : Qt (Mealpy.draw m >>= f) H' R' := Qt.bind0 Qt.draw fun a _ => h' a

theorem Qt.bindGet {f : St c X Y → M c X Y β} (h' : ∀ a, Qt (f a) H' R') : Qt (MonadState.get >>= f) H' R' := Qt.bind0 Qt.get fun a _ => h' a

theorem Qt.ite {p : Prop} [Decidable p] {m n : M c X Y α} (h : p → Qt m H R) (h' : ¬ p → Qt n H R) : Qt (if p then m else n) H R := by
  split
  · exact h ‹_›
  · exact h' ‹_›

theorem Qt.iter {f : Nat → α → M c X Y α} {n : Nat} {a : α} (I : Nat → α → Prop) (h0 : I 0 a)
    (h : ∀ i a, i < n → I i a → Qt (f i a) H (fun b => I (i + 1) b ∧ ∀ x ∈ H a, ∃ e ∈ H b, NoWorse c.P.mm e.fit x.fit)) : Qt (iter n f a : M c X Y α) H (I n) := fun s => by
  refine Wp.iter (fun i a (s' : St c X Y) => s'.pop = s.pop ∧ s'.ext = s.ext ∧ s'.gbest = s.gbest ∧ s'.hist = s.hist ∧
    (∃ xs, s'.base.log = s.base.log ++ xs ∧ ∀ x ∈ xs, ∃ b ∈ H a, NoWorse c.P.mm b.fit (c.P.target x).fitness) ∧ I i a) n
    ⟨rfl, rfl, rfl, rfl, ⟨[], by simp, by simp⟩, h0⟩ ?_
  rintro i a s1 hi ⟨h1, h2, h3, h4, ⟨xs, h5, h6⟩, h7⟩
  refine Wp.mono (h i a hi h7 s1) ?_
  rintro b s2 ⟨k1, k2, k3, k4, ⟨ys, k5, k6⟩, k7, k8⟩
  refine ⟨k1.trans h1, k2.trans h2, k3.trans h3, k4.trans h4, ⟨xs ++ ys, by rw [k5, h5, List.append_assoc], fun x hx => ?_⟩, k7⟩
  rcases List.mem_append.1 hx with hx | hx
  · obtain ⟨e, he, hn⟩ := h6 x hx
    obtain ⟨e', he', hn'⟩ := k8 e he
    exact ⟨e', he', hn'.trans hn⟩
  · exact k6 x hx

theorem Qb.liftD {m : D c α} : Qb (Mealpy.liftD m : B c α) (fun _ => ([] : List (Agent d K X))) Any := fun b =>
  Wp.liftD DT.any fun a r v _ => ⟨⟨[], by simp, by simp⟩, trivial⟩

theorem Qb.liftDR {m : D c α} (h : DT (fun _ => True) m R) : Qb (Mealpy.liftD m : B c α) (fun _ => ([] : List (Agent d K X))) R := fun b =>
  Wp.liftD h fun a r v h => ⟨⟨[], by simp, by simp⟩, h⟩

theorem Qb.pure {a : α} (h : R a) : Qb (Pure.pure a : B c α) H R := fun b => Wp.pure ⟨⟨[], by simp, by simp⟩, h⟩

theorem Qb.mono {H2 : α → List (Agent d K X)} {R2 : α → Prop} {m : B c α} (h : Qb m H R) (hH : ∀ a, R a → ∀ b ∈ H a, ∃ e ∈ H2 a, NoWorse c.P.mm e.fit b.fit)
    (hR : ∀ a, R a → R2 a) : Qb m H2 R2 := fun s => Wp.mono (h s) fun a s' ⟨⟨xs, h5, h6⟩, h7⟩ =>
  ⟨⟨xs, h5, fun x hx => by
    obtain ⟨b, hb, hn⟩ := h6 x hx
    obtain ⟨e, he, hn'⟩ := hH a h7 b hb
    exact ⟨e, he, hn'.trans hn⟩⟩, hR a h7⟩

theorem Qb.weak {R2 : α → Prop} {m : B c α} (h : Qb m H R) (hR : ∀ a, R a → R2 a) : Qb m H R2 := h.mono (fun a _ b hb => ⟨b, hb, NoWorse.rfl⟩) hR

theorem Qb.bind {m : B c α} {f : α → B c β} (h : Qb m H R) (h' : ∀ a, R a → Qb (f a) H' (fun b => R' b ∧ ∀ x ∈ H a, ∃ e ∈ H' b, NoWorse c.P.mm e.fit x.fit)) :
    Qb (m >>= f) H' R' := fun s => Wp.bind (Wp.mono (h s) fun a s1 ⟨⟨xs, h5, h6⟩, h7⟩ =>
  Wp.mono (h' a h7 s1) fun b s2 ⟨⟨ys, k5, k6⟩, k7, k8⟩ =>
    ⟨⟨xs ++ ys, by rw [k5, h5, List.append_assoc], fun x hx => by
      rcases List.mem_append.1 hx with hx | hx
      · obtain ⟨e, he, hn⟩ := h6 x hx
        obtain ⟨e', he', hn'⟩ := k8 e he
        exact ⟨e', he', hn'.trans hn⟩
      · exact k6 x hx⟩, k7⟩)

theorem Qb.bind0 {m : B c α} {f : α → B c β} (h : Qb m (fun _ => ([] : List (Agent d K X))) R) (h' : ∀ a, R a → Qb (f a) H' R') : Qb (m >>= f) H' R' :=
  Qb.bind h fun a ha => (h' a ha).weak fun b hb => ⟨hb, by simp⟩

theorem Qb.iter {f : Nat → α → B c α} {n : Nat} {a : α} (I : Nat → α → Prop) (h0 : I 0 a)
    (h : ∀ i a, i < n → I i a → Qb (f i a) H (fun b => I (i + 1) b ∧ ∀ x ∈ H a, ∃ e ∈ H b, NoWorse c.P.mm e.fit x.fit)) : Qb (Mealpy.iter n f a : B c α) H (I n) := fun s => by
  refine Wp.iter (fun i a (s' : Base c) => (∃ xs, s'.log = s.log ++ xs ∧ ∀ x ∈ xs, ∃ b ∈ H a, NoWorse c.P.mm b.fit (c.P.target x).fitness) ∧ I i a) n
    ⟨⟨[], by simp, by simp⟩, h0⟩ ?_
  rintro i a s1 hi ⟨⟨xs, h5, h6⟩, h7⟩
  refine Wp.mono (h i a hi h7 s1) ?_
  rintro b s2 ⟨⟨ys, k5, k6⟩, k7, k8⟩
  refine ⟨⟨xs ++ ys, by rw [k5, h5, List.append_assoc], fun x hx => ?_⟩, k7⟩
  rcases List.mem_append.1 hx with hx | hx
  · obtain ⟨e, he, hn⟩ := h6 x hx
    obtain ⟨e', he', hn'⟩ := k8 e he
    exact ⟨e', he', hn'.trans hn⟩
  · exact k6 x hx

/-- an evaluation, kept in an agent with any other attributes -/
theorem Qb.getTarget {x : Vec d K} {e : X} : Qb (Mealpy.getTarget x : B c _) (fun t => [(⟨x, t, e⟩ : Agent d K X)]) (fun t => t = c.P.target x) := fun b =>
  Wp.getTarget ⟨⟨[x], by simp, by simp [Agent.fit, NoWorse.rfl]⟩, rfl⟩

theorem Qb.agentOf {mkExt : Vec d K → D c X} {x : Vec d K} : Qb (Mealpy.agentOf mkExt x : B c _) (fun a => [a]) (fun a => a.tgt = c.P.target x ∧ a.sol = x) := by
  unfold Mealpy.agentOf
  exact .bind0 .liftD fun e _ => .bind (Qb.getTarget (e := e)) fun t ht => .pure ⟨⟨ht, rfl⟩, fun a ha => ⟨a, ha, NoWorse.rfl⟩⟩

theorem Qb.generateAgent {mkExt : Vec d K → D c X} : Qb (Mealpy.generateAgent mkExt : B c _) (fun a => [a]) Any := by
  unfold Mealpy.generateAgent
  exact .bind0 .liftD fun x _ => Qb.agentOf.weak fun _ _ => trivial

theorem Qb.generatePopulation (hE : c.E.Lawful) (hP : c.P.Lawful) {mkExt : Vec d K → D c X} {n : Nat} :
    Qb (Mealpy.generatePopulation mkExt n : B c _) (fun l => l) (fun l => l.length = n) := fun b => by
  refine Wp.mono (generatePopulation_spec hE hP n (F := fun _ => True) (fun x _ => DT.any)) ?_
  rintro pop b' ⟨h1, h2, ⟨new, h3, h3'⟩, -⟩
  refine ⟨⟨new, h3, fun x hx => ?_⟩, h1⟩
  obtain ⟨a, ha, rfl⟩ := List.mem_map.1 (h3'.mem_iff.1 hx)
  exact ⟨a, ha, by rw [← (h2 a ha).2.1]; exact NoWorse.rfl⟩

theorem Qb.updateTargets (hE : c.E.Lawful) {pend : List (Vec d K × X)} :
    Qb (Mealpy.updateTargets pend : B c _) (fun l => l) (fun l => l = pend.map (fun p => ⟨p.1, c.P.target p.1, p.2⟩)) := fun b => by
  by_cases hm : c.swarmLike = true
  · refine Wp.mono (updateTargets_spec hE hm pend b) ?_
    rintro new b' ⟨rfl, xs, h1, h2, -⟩
    refine ⟨⟨xs, h2, fun x hx => ?_⟩, rfl⟩
    obtain ⟨p, hp, rfl⟩ := List.mem_map.1 (h1.mem_iff.1 hx)
    exact ⟨⟨p.1, c.P.target p.1, p.2⟩, List.mem_map.2 ⟨p, hp, rfl⟩, NoWorse.rfl⟩
  · refine Wp.any fun l b' h => ?_
    rw [updateTargets_single (by simpa using hm)] at h
    cases h

theorem Qt.updateTargets (hE : c.E.Lawful) {pend : List (Vec d K × X)} :
    Qt (Mealpy.liftB (Mealpy.updateTargets pend) : M c X Y _) (fun l => l) (fun l => l.length = pend.length) :=
  (Qt.liftB (Qb.updateTargets hE)).weak fun l h => by rw [h, List.length_map]

theorem Qt.getTarget {x : Vec d K} {e : X} : Qt (Mealpy.liftB (Mealpy.getTarget x) : M c X Y _) (fun t => [(⟨x, t, e⟩ : Agent d K X)]) (fun t => t = c.P.target x) :=
  .liftB .getTarget

theorem Qt.agentOf {mkExt : Vec d K → D c X} {x : Vec d K} : Qt (Mealpy.liftB (Mealpy.agentOf mkExt x) : M c X Y _) (fun a => [a]) Any :=
  (Qt.liftB .agentOf).weak fun _ _ => trivial

theorem Qt.generateAgent {mkExt : Vec d K → D c X} : Qt (Mealpy.liftB (Mealpy.generateAgent mkExt) : M c X Y _) (fun a => [a]) Any := .liftB .generateAgent

theorem Qt.buildEval (hE : c.E.Lawful) {n : Nat} {mk : St c X Y → Nat → D c (Vec d K × X)} :
    Qt (Mealpy.buildEval n mk : M c X Y _) (fun l => l) (fun l => l.length = n) := by
  unfold Mealpy.buildEval
  refine .ite (fun _ => .bindGet fun s => .bind0 (.drawR buildPending_len) fun pend hp => (Qt.updateTargets hE).weak fun l h => h.trans hp) fun _ => ?_
  refine Qt.iter (fun i (l : List (Agent d K X)) => l.length = i) rfl fun i l _ hl => .bindGet fun s => .bindDraw fun (p : Vec d K × X) => .bind (Qt.getTarget (e := p.2)) fun t ht => Qt.pure
    ⟨⟨by simp [hl], fun x hx => ⟨x, by simp [hx], NoWorse.rfl⟩⟩, fun x hx => ⟨x, List.mem_append_right _ hx, NoWorse.rfl⟩⟩

theorem Qt.evalAll (hE : c.E.Lawful) {pend : List (Vec d K × X)} :
    Qt (Mealpy.evalAll pend : M c X Y _) (fun l => l) (fun l => l.length = pend.length) := Qt.buildEval hE

end qt

/-! ## code that changes the population -/

/-- see the head of the file -/
def Kp (r : Agent d K X) (q : List (Agent d K X)) (y : Y) (G : List (Agent d K X)) (m : M c X Y α) (F : α → List (Agent d K X) → Y → List (Agent d K X))
    (R : α → List (Agent d K X) → Y → Prop) : Prop :=
  ∀ s, s.pop = q → s.ext = y → Saved r G s → Wp (fun _ => True) m s (fun a s' => Saved r (F a s'.pop s'.ext) s' ∧ R a s'.pop s'.ext)

/-- nothing more is known -/
abbrev Any3 : α → List (Agent d K X) → Y → Prop := fun _ _ _ => True

section kp
variable {r : Agent d K X} {q : List (Agent d K X)} {y : Y} {G : List (Agent d K X)} {F : α → List (Agent d K X) → Y → List (Agent d K X)}
  {R : α → List (Agent d K X) → Y → Prop} {F' : β → List (Agent d K X) → Y → List (Agent d K X)} {R' : β → List (Agent d K X) → Y → Prop}
  {H : α → List (Agent d K X)} {S : α → Prop}

theorem Kp.pre {m : M c X Y α} {G' : List (Agent d K X)} (hd : Dom c.P.mm r G G') (h : Kp r q y G' m F R) : Kp r q y G m F R := fun s hq hy hs =>
  h s hq hy (hs.dom hd)

theorem Kp.post {m : M c X Y α} {F2 : α → List (Agent d K X) → Y → List (Agent d K X)} {R2 : α → List (Agent d K X) → Y → Prop} (h : Kp r q y G m F R)
    (hd : ∀ a q' y', R a q' y' → Dom c.P.mm r (F a q' y') (F2 a q' y') ∧ R2 a q' y') : Kp r q y G m F2 R2 := fun s hq hy hs =>
  Wp.mono (h s hq hy hs) fun a s' h => ⟨h.1.dom (hd _ _ _ h.2).1, (hd _ _ _ h.2).2⟩

theorem Saved.quiet {s s' : St c X Y} {L : List (Agent d K X)} (h : Saved r G s) (h3 : s'.gbest = s.gbest) (h4 : s'.hist = s.hist)
    (h5 : ∃ xs, s'.base.log = s.base.log ++ xs ∧ ∀ x ∈ xs, ∃ b ∈ L, NoWorse c.P.mm b.fit (c.P.target x).fitness) : Saved r (G ++ L) s' := by
  refine ⟨h3.trans h.gbest, h4 ▸ h.record, fun x hx => ?_⟩
  obtain ⟨xs, h5, h6⟩ := h5
  rw [h5] at hx
  rcases List.mem_append.1 hx with hx | hx
  · obtain ⟨a, ha, hn⟩ := h.log x hx
    exact ⟨a, by simp only [List.mem_cons, List.mem_append] at ha ⊢; tauto, hn⟩
  · obtain ⟨a, ha, hn⟩ := h6 x hx
    exact ⟨a, List.mem_cons_of_mem _ (List.mem_append_right _ ha), hn⟩

theorem Kp.quiet {m : M c X Y α} (h : Qt m H S) (hd : ∀ a, S a → Dom c.P.mm r (G ++ H a) (F a q y) ∧ R a q y) : Kp r q y G m F R := fun s hq hy hs =>
  Wp.mono (h s) fun a s' ⟨h1, h2, h3, h4, h5, h6⟩ => by
    rw [h1, h2, hq, hy]
    exact ⟨(hs.quiet h3 h4 h5).dom (hd a h6).1, (hd a h6).2⟩

theorem Kp.pure {a : α} (h : Dom c.P.mm r G (F a q y)) (hR : R a q y) : Kp r q y G (Pure.pure a : M c X Y α) F R := fun s hq hy hs =>
  Wp.pure (by rw [hq, hy]; exact ⟨hs.dom h, hR⟩)

theorem Kp.mthrow {e : Err} : Kp r q y G (mthrow e : M c X Y α) F R := fun _ _ _ _ => trivial

theorem Kp.bind {m : M c X Y α} {f : α → M c X Y β} (h : Kp r q y G m F R) (h' : ∀ a q' y', R a q' y' → Kp r q' y' (F a q' y') (f a) F' R') :
    Kp r q y G (m >>= f) F' R' := fun s hq hy hs =>
  Wp.bind (Wp.mono (h s hq hy hs) fun a s1 h1 => h' a s1.pop s1.ext h1.2 s1 rfl rfl h1.1)

theorem Kp.bindQ {m : M c X Y α} {f : α → M c X Y β} (h : Qt m H S) (h' : ∀ a, S a → Kp r q y (G ++ H a) (f a) F' R') : Kp r q y G (m >>= f) F' R' :=
  fun s hq hy hs => Wp.bind (Wp.mono (h s) fun a s1 ⟨h1, h2, h3, h4, h5, h6⟩ => h' a h6 s1 (h1.trans hq) (h2.trans hy) (hs.quiet h3 h4 h5))

theorem Kp.bind0 {m : M c X Y α} {f : α → M c X Y β} (h : Qt m (fun _ => []) S) (h' : ∀ a, S a → Kp r q y G (f a) F' R') : Kp r q y G (m >>= f) F' R' :=
  .bindQ h fun a ha => by rw [List.append_nil]; exact h' a ha

theorem Kp.bindDraw {m : D c α} {f : α → M c X Y β} (h' : ∀ a, Kp r q y G (f a) F' R') : Kp r q y G (draw m >>= f) F' R' := .bind0 Qt.draw fun a _ => h' a

theorem Kp.bindGet {f : St c X Y → M c X Y β} (h' : ∀ s : St c X Y, s.pop = q → s.ext = y → s.gbest = r → Kp r q y G (f s) F' R') :
    Kp r q y G (get >>= f) F' R' := fun s hq hy hs => Wp.bind (Wp.get (h' s hq hy hs.gbest s hq hy hs))

theorem Kp.bindPop {i : Nat} {f : Agent d K X → M c X Y β} (h' : ∀ a, q[i]? = some a → Kp r q y G (f a) F' R') : Kp r q y G (popAt i >>= f) F' R' :=
  fun s hq hy hs => Wp.bind (Wp.any (by
    intro a s' h
    unfold Mealpy.popAt at h
    split at h
    · rename_i b hb
      injection h with h
      obtain ⟨rfl, rfl⟩ := Prod.mk.inj h
      exact h' b (hq ▸ hb) s hq hy hs
    · cases h))

theorem Saved.shape {s : St c X Y} (h : Saved r G s) {p : List (Agent d K X)} {z : Y} : Saved r G ({ s with pop := p, ext := z } : St c X Y) := ⟨h.gbest, h.record, h.log⟩

theorem Kp.setAt {i : Nat} {a : Agent d K X} {F : Unit → List (Agent d K X) → Y → List (Agent d K X)} {R : Unit → List (Agent d K X) → Y → Prop}
    (h : i < q.length → Dom c.P.mm r G (F () (q.set i a) y) ∧ R () (q.set i a) y) : Kp r q y G (setAt i a : M c X Y Unit) F R := fun s hq hy hs => Wp.any (by
  intro u s' h1
  unfold Mealpy.setAt at h1
  split at h1
  · rename_i hi
    injection h1 with h1
    obtain ⟨-, rfl⟩ := Prod.mk.inj h1
    rw [hq] at hi
    show Saved r (F () (s.pop.set i a) s.ext) _ ∧ R () (s.pop.set i a) s.ext
    rw [hq, hy]
    exact ⟨Saved.dom ⟨hs.gbest, hs.record, hs.log⟩ (h hi).1, (h hi).2⟩
  · cases h1)

theorem Kp.bindSetAt {i : Nat} {a : Agent d K X} {f : Unit → M c X Y β} (h' : i < q.length → Kp r (q.set i a) y G (f ()) F' R') :
    Kp r q y G (Mealpy.setAt i a >>= f) F' R' :=
  .bind (F := fun _ _ _ => G) (R := fun _ q' y' => i < q.length ∧ q' = q.set i a ∧ y' = y) (.setAt fun hi => ⟨.rfl, hi, rfl, rfl⟩)
    fun _ q' y' ⟨hi, h1, h2⟩ => by subst h1 h2; exact h' hi

theorem Kp.reshape {g : List (Agent d K X) → List (Agent d K X)} {F : Unit → List (Agent d K X) → Y → List (Agent d K X)} {R : Unit → List (Agent d K X) → Y → Prop}
    (h : Dom c.P.mm r G (F () (g q) y) ∧ R () (g q) y) : Kp r q y G (reshape g : M c X Y Unit) F R := fun s hq hy hs => by
  unfold Mealpy.reshape
  refine Wp.modify ?_
  show Saved r (F () (g s.pop) s.ext) _ ∧ R () (g s.pop) s.ext
  rw [hq, hy]
  exact ⟨Saved.dom ⟨hs.gbest, hs.record, hs.log⟩ h.1, h.2⟩

theorem Kp.bindReshape {g : List (Agent d K X) → List (Agent d K X)} {f : Unit → M c X Y β} (h' : Kp r (g q) y G (f ()) F' R') :
    Kp r q y G (Mealpy.reshape g >>= f) F' R' :=
  .bind (F := fun _ _ _ => G) (R := fun _ q' y' => q' = g q ∧ y' = y) (.reshape ⟨.rfl, rfl, rfl⟩) fun _ q' y' ⟨h1, h2⟩ => by subst h1 h2; exact h'

theorem Kp.setPop {l : List (Agent d K X)} {F : Unit → List (Agent d K X) → Y → List (Agent d K X)} {R : Unit → List (Agent d K X) → Y → Prop}
    (h : Dom c.P.mm r G (F () l y) ∧ R () l y) : Kp r q y G (setPop l : M c X Y Unit) F R := fun s hq hy hs => by
  unfold Mealpy.setPop
  refine Wp.modify ?_
  show Saved r (F () l s.ext) _ ∧ R () l s.ext
  rw [hy]
  exact ⟨Saved.dom ⟨hs.gbest, hs.record, hs.log⟩ h.1, h.2⟩

theorem Kp.bindSetPop {l : List (Agent d K X)} {f : Unit → M c X Y β} (h' : Kp r l y G (f ()) F' R') : Kp r q y G (Mealpy.setPop l >>= f) F' R' :=
  .bind (F := fun _ _ _ => G) (R := fun _ q' y' => q' = l ∧ y' = y) (.setPop ⟨.rfl, rfl, rfl⟩) fun _ q' y' ⟨h1, h2⟩ => by subst h1 h2; exact h'

theorem Kp.modExt {g : Y → Y} {F : Unit → List (Agent d K X) → Y → List (Agent d K X)} {R : Unit → List (Agent d K X) → Y → Prop}
    (h : Dom c.P.mm r G (F () q (g y)) ∧ R () q (g y)) : Kp r q y G (modExt g : M c X Y Unit) F R := fun s hq hy hs => by
  unfold Mealpy.modExt
  refine Wp.modify ?_
  show Saved r (F () s.pop (g s.ext)) _ ∧ R () s.pop (g s.ext)
  rw [hq, hy]
  exact ⟨Saved.dom ⟨hs.gbest, hs.record, hs.log⟩ h.1, h.2⟩

theorem Kp.bindExt {g : Y → Y} {f : Unit → M c X Y β} (h' : Kp r q (g y) G (f ()) F' R') : Kp r q y G (Mealpy.modExt g >>= f) F' R' :=
  .bind (F := fun _ _ _ => G) (R := fun _ q' y' => q' = q ∧ y' = g y) (.modExt ⟨.rfl, rfl, rfl⟩) fun _ q' y' ⟨h1, h2⟩ => by subst h1 h2; exact h'

/-- `update_global_best_agent(save=False)`: the record only gets better -/
theorem Kp.noSave {l : List (Agent d K X)} {F : List (Agent d K X) × Agent d K X → List (Agent d K X) → Y → List (Agent d K X)}
    {R : List (Agent d K X) × Agent d K X → List (Agent d K X) → Y → Prop}
    (h : ∀ b, Dom c.P.mm r G (F ((getSorted c.E.argsort l c.P.mm).1, b) q y) ∧ R ((getSorted c.E.argsort l c.P.mm).1, b) q y) :
    Kp r q y G (updateGlobalBestNoSave l : M c X Y _) F R := fun s hq hy hs => Wp.any (by
  intro a s' h1
  unfold Mealpy.updateGlobalBestNoSave at h1
  simp only at h1
  split at h1
  · rename_i cb cw lb gb lw gw e1 e2 e3 e4 e5 e6
    injection h1 with h1
    obtain ⟨rfl, rfl⟩ := Prod.mk.inj h1
    show Saved r (F _ s.pop s.ext) _ ∧ R _ s.pop s.ext
    rw [hq, hy]
    refine ⟨Saved.dom ⟨hs.gbest, ?_, hs.log⟩ (h _).1, (h _).2⟩
    obtain ⟨g, hg, hn⟩ := hs.record
    refine ⟨getBetterAgent cb gb c.P.mm, ?_, ?_⟩
    · show (setLast s.hist.globalBest _).getLast? = _
      simp [setLast]
    · rw [e4] at hg
      obtain rfl := Option.some.inj hg
      exact (getBetterAgent_cases cb gb c.P.mm).2.2.trans hn
  · cases h1)

theorem Kp.bindNoSave {l : List (Agent d K X)} {f : List (Agent d K X) × Agent d K X → M c X Y β}
    (h' : ∀ b, Kp r q y G (f ((getSorted c.E.argsort l c.P.mm).1, b)) F' R') : Kp r q y G (updateGlobalBestNoSave l >>= f) F' R' :=
  .bind (F := fun _ _ _ => G) (R := fun p q' y' => p.1 = (getSorted c.E.argsort l c.P.mm).1 ∧ q' = q ∧ y' = y) (.noSave fun b => ⟨.rfl, rfl, rfl, rfl⟩)
    fun p q' y' ⟨h0, h1, h2⟩ => by subst h1 h2; obtain ⟨p1, p2⟩ := p; subst h0; exact h' p2

theorem Kp.ite {p : Prop} [Decidable p] {m n : M c X Y α} (h : p → Kp r q y G m F R) (h' : ¬ p → Kp r q y G n F R) : Kp r q y G (if p then m else n) F R := by
  split
  · exact h ‹_›
  · exact h' ‹_›

theorem Kp.iter {f : Nat → α → M c X Y α} {n : Nat} {a : α} (I : Nat → α → List (Agent d K X) → Y → List (Agent d K X))
    (P : Nat → α → List (Agent d K X) → Y → Prop) (h0 : Dom c.P.mm r G (I 0 a q y)) (p0 : P 0 a q y)
    (h : ∀ i a q y, i < n → P i a q y → Kp r q y (I i a q y) (f i a) (I (i + 1)) (P (i + 1))) : Kp r q y G (iter n f a : M c X Y α) (I n) (P n) := fun s hq hy hs => by
  refine Wp.iter (fun i a (s' : St c X Y) => Saved r (I i a s'.pop s'.ext) s' ∧ P i a s'.pop s'.ext) n ⟨by rw [hq, hy]; exact hs.dom h0, by rw [hq, hy]; exact p0⟩ ?_
  rintro i a s1 hi ⟨h1, h2⟩
  exact h i a s1.pop s1.ext hi h2 s1 rfl rfl h1

end kp

/-! ## the shapes the algorithms share -/

section shapes
variable {r : Agent d K X} {q : List (Agent d K X)} {y : Y} {G L : List (Agent d K X)}

/-- what is covered is covered by the population and `L` -/
abbrev InPop (L : List (Agent d K X)) : α → List (Agent d K X) → Y → List (Agent d K X) := fun _ q' _ => q' ++ L

theorem Kp.setBest {i : Nat} {old a b : Agent d K X} (ho : q[i]? = some old) (hn : NoWorse c.P.mm b.fit old.fit) (hn' : NoWorse c.P.mm b.fit a.fit)
    (hd : Dom c.P.mm r G (q ++ L)) : Kp r q y (G ++ [a]) (Mealpy.setAt i b : M c X Y Unit) (InPop L) Any3 :=
  .setAt fun hi => ⟨(Dom.append (hd.left (L := [a])) ((Dom.rfl (G := [a])).right)).trans (Dom.slot ho hn hn'), trivial⟩

theorem Kp.slotComp {i : Nat} {a : Agent d K X} (hd : Dom c.P.mm r G (q ++ L)) : Kp r q y (G ++ [a]) (slotComp i a : M c X Y Unit) (InPop L) Any3 :=
  .bindPop fun old ho => .ite (fun h => .setBest ho (compareTarget_true h) NoWorse.rfl hd) fun h =>
    .pure (.append hd (.one (List.mem_append_left _ (List.mem_of_getElem? ho)) (compareTarget_false (by simpa using h)))) trivial

theorem Kp.tryBetter {i : Nat} {p : Vec d K × X} (hd : Dom c.P.mm r G (q ++ L)) : Kp r q y G (tryBetter i p : M c X Y Unit) (InPop L) Any3 :=
  .bindQ (Qt.getTarget (e := p.2)) fun t ht => .bindPop fun old ho =>
    .setBest ho (getBetterAgent_cases _ old c.P.mm).2.2 (getBetterAgent_cases _ old c.P.mm).2.1 hd

theorem Kp.tryBetterR {i : Nat} {p : Vec d K × X} (hd : Dom c.P.mm r G (q ++ L)) : Kp r q y G (tryBetterR i p : M c X Y Unit) (InPop L) Any3 :=
  .bindQ (Qt.getTarget (e := p.2)) fun t ht => .bindPop fun old ho =>
    .setBest ho (getBetterAgent_cases old _ c.P.mm).2.1 (getBetterAgent_cases old _ c.P.mm).2.2 hd

theorem Kp.tryCompare {mkExt : Vec d K → D c X} {i : Nat} {x : Vec d K} (hd : Dom c.P.mm r G (q ++ L)) :
    Kp r q y G (tryCompare mkExt i x : M c X Y Unit) (InPop L) Any3 :=
  .bindQ Qt.agentOf fun a _ => .slotComp hd

theorem Kp.selectGreedy {new : List (Agent d K X)} (hd : Dom c.P.mm r G (q ++ new ++ L)) : Kp r q y G (selectGreedy new : M c X Y Unit) (InPop L) (fun _ q' _ => Dom c.P.mm r new q') := fun s hq hy hs => Wp.any (by
  intro u s' h
  unfold Mealpy.selectGreedy at h
  split at h
  · rename_i pop hpop
    injection h with h
    obtain ⟨-, rfl⟩ := Prod.mk.inj h
    rw [hq] at hpop
    by_cases hlen : q.length = new.length
    · have hz : pop = List.zipWith (greedyPick c.P.mm) q new := by
        unfold greedySelection at hpop
        rw [if_neg (by simpa using hlen)] at hpop
        cases hm : c.P.mm <;> rw [hm] at hpop <;> exact (Except.ok.inj hpop).symm
      have hzip : Dom c.P.mm r (q ++ new) pop := by
        rw [hz]
        exact Dom.zip (greedyPick_noWorse _) (greedyPick_noWorse' _) hlen
      refine ⟨Saved.dom ⟨hs.gbest, hs.record, hs.log⟩ ?_, ?_⟩
      · exact hd.trans (.append hzip.left Dom.rfl.right)
      · exact fun a ha => hzip a (List.mem_append_right _ ha)
    · unfold greedySelection at hpop
      rw [if_pos hlen] at hpop
      cases hpop
  · cases h)

theorem Kp.pool (hE : c.E.Lawful) {pend : List (Vec d K × X)} (hd : Dom c.P.mm r G (q ++ L)) :
    Kp r q y G (liftB (updateTargets pend) >>= fun new => Mealpy.selectGreedy new : M c X Y Unit) (InPop L) Any3 :=
  .bindQ (Qt.updateTargets hE) fun new _ => .post (.selectGreedy (.append (hd.trans (.append (Dom.rfl.left.left) Dom.rfl.right)) (Dom.rfl.right.left))) fun _ _ _ _ => ⟨.rfl, trivial⟩

theorem Kp.greedyLoop (hE : c.E.Lawful) {n : Nat} {mk : St c X Y → Nat → D c (Vec d K × X)} (hd : Dom c.P.mm r G (q ++ L)) :
    Kp r q y G (greedyLoop n mk : M c X Y Unit) (InPop L) Any3 :=
  .ite (fun _ => .bindGet fun _ _ _ _ => .bindDraw fun _ => .pool hE hd)
    fun _ => .iter (fun _ => InPop L) (fun _ => Any3) hd trivial fun _ _ _ _ _ _ => .bindGet fun _ _ _ _ => .bindDraw fun _ => .tryBetter .rfl

theorem Kp.greedyLoopR (hE : c.E.Lawful) {n : Nat} {mk : St c X Y → Nat → D c (Vec d K × X)} (hd : Dom c.P.mm r G (q ++ L)) :
    Kp r q y G (greedyLoopR n mk : M c X Y Unit) (InPop L) Any3 :=
  .ite (fun _ => .bindGet fun _ _ _ _ => .bindDraw fun _ => .pool hE hd)
    fun _ => .iter (fun _ => InPop L) (fun _ => Any3) hd trivial fun _ _ _ _ _ _ => .bindGet fun _ _ _ _ => .bindDraw fun _ => .tryBetterR .rfl

theorem Kp.sortPop (hE : c.E.Lawful) (hd : Dom c.P.mm r G (q ++ L)) : Kp r q y G (sortPop : M c X Y Unit) (InPop L) Any3 := by
  unfold Mealpy.sortPop
  exact .reshape ⟨hd.trans (.append (Dom.perm (getSorted_perm hE.argsortLaw q c.P.mm).symm).left Dom.rfl.right), trivial⟩

theorem Dom.mapIdx {mm : MinMax} {f : Nat → Agent d K X → Agent d K X} (h : ∀ i a, (f i a).fit = a.fit) : Dom mm r q (q.mapIdx f) := by
  intro a ha
  obtain ⟨k, hk, rfl⟩ := List.getElem_of_mem ha
  exact ⟨f k q[k], List.mem_cons_of_mem _ (List.mem_iff_getElem.2 ⟨k, by simpa using hk, by simp⟩), by rw [h]; exact NoWorse.rfl⟩

theorem Kp.mapExt {f : Nat → Agent d K X → X} (hd : Dom c.P.mm r G (q ++ L)) : Kp r q y G (mapExt f : M c X Y Unit) (InPop L) Any3 := by
  unfold Mealpy.mapExt
  refine .reshape ⟨hd.trans (.append (Dom.left ?_) Dom.rfl.right), trivial⟩
  exact Dom.mapIdx fun _ _ => rfl

end shapes

/-! ## whole runs -/

/-- the best agent on record is the best agent, and covers every point evaluated -/
def Topped (s : St c X Y) : Prop :=
  s.hist.globalBest.getLast? = some s.gbest ∧ ∀ x ∈ s.base.log, NoWorse c.P.mm s.gbest.fit (c.P.target x).fitness

theorem Topped.saved {s : St c X Y} (h : Topped s) : Saved s.gbest [] s := ⟨rfl, ⟨_, h.1, NoWorse.rfl⟩, fun x hx => ⟨_, List.mem_cons_self, h.2 x hx⟩⟩

/-- `before_main` does nothing that matters here, and keeps `J` -/
def Calm (J : Y → Prop) (m : M c X Y Unit) : Prop :=
  ∀ s, J s.ext → Wp (fun _ => True) m s (fun _ s' => s'.hist = s.hist ∧ s'.gbest = s.gbest ∧ s'.base.log = s.base.log ∧ s'.pop = s.pop ∧ J s'.ext)

/-- If the first population covers what was evaluated for it, and every epoch keeps what it evaluates in the population, then the run returns
the best point it evaluated. -/
theorem keeps_best {A : Algo c X Y} (J : Y → Prop) (hE : c.E.Lawful) {o : RunOpts K}
    (hinit : ∀ o', o'.starting = o.starting → Qb (initialPop A o') (fun r => r.1) (fun r => J r.2))
    (hbefore : Calm J A.beforeMain)
    (hev : ∀ ep r q y, q ≠ [] → (∀ a ∈ q, NoWorse c.P.mm r.fit a.fit) → J y → Kp r q y [] (A.evolve ep) (InPop []) (fun _ _ y' => J y')) {b : Base c} (hb : b.log = [])
    {s : St c X Y} {h : FinalHist d K X} (hs : solve A o b = .ok (s, h)) :
    ∀ x ∈ s.base.log, NoWorse c.P.mm s.gbest.fit (c.P.target x).fitness := by
  obtain ⟨o', bb, pop0, y, b2, s0, s1, g1, g2, g3, g4, g5, g6⟩ := solve_ok hs
  obtain ⟨o'', bb', ho, hos, hosp, hlog, hnone, hsome⟩ := startTermination_ok o b
  rw [g1] at ho
  injection ho with ho
  obtain ⟨rfl, rfl⟩ := Prod.mk.inj ho
  have hl1 : bb.log = [] := by rw [hlog, hb]
  obtain ⟨⟨xs, hx1, hx2⟩, hJ⟩ := Wp.elim (hinit o' hos bb) g2
  rw [hl1, List.nil_append] at hx1
  obtain ⟨best, worst, hbest, hworst, hs0e⟩ := afterInit_ok hE g3
  have hs0 : Topped s0 := by
    rw [hs0e]
    refine ⟨rfl, fun x hx => ?_⟩
    have hx : x ∈ b2.log := hx
    rw [hx1] at hx
    obtain ⟨a, ha, hn⟩ := hx2 x hx
    exact (hbest.2 a ha).trans hn
  have hne : ∀ {sf : Bool} {l : List (Agent d K X)} {a : Agent d K X}, a ∈ l → (if sf then (getSorted c.E.argsort l c.P.mm).1 else l) ≠ [] := by
    intro sf l a ha
    split
    · exact List.ne_nil_of_mem ((getSorted_perm hE.argsortLaw l c.P.mm).mem_iff.2 ha)
    · exact List.ne_nil_of_mem ha
  have hmem : ∀ {sf : Bool} {l : List (Agent d K X)} {a : Agent d K X}, a ∈ (if sf then (getSorted c.E.argsort l c.P.mm).1 else l) → a ∈ l := by
    intro sf l a ha
    split at ha
    · exact (getSorted_perm hE.argsortLaw l c.P.mm).mem_iff.1 ha
    · exact ha
  obtain ⟨e1, e2, e3, e4, e5⟩ := Wp.elim (hbefore s0 (by rw [hs0e]; exact hJ)) g4
  have hs1 : Topped s1 := ⟨by rw [e1, e2]; exact hs0.1, by rw [e2, e3]; exact hs0.2⟩
  have hloop := mainLoop_wp (Er := fun _ => True) (A := A) (o := o') (fun k s => Topped s ∧ s.pop ≠ [] ∧ (∀ a ∈ s.pop, NoWorse c.P.mm s.gbest.fit a.fit) ∧ J s.ext) (by
      rintro k s ⟨hs, hp, hr, hj⟩ hk
      refine Wp.mono (epochStep_wp (R := fun s1 => Saved s.gbest s1.pop s1 ∧ J s1.ext) hE ?_ (.inl fun _ => trivial)) ?_
      · intro r v
        refine Wp.mono (hev (k + 1) s.gbest s.pop s.ext hp hr hj _ rfl rfl ?_) fun _ s' h => ⟨?_, h.2⟩
        · exact Topped.saved (s := { s with base := { s.base with rng := r, vg := v } }) hs
        · have h := h.1
          simp only [InPop, List.append_nil] at h
          exact h
      · rintro f s' ⟨s1, ⟨hsv, hj'⟩, hend, -⟩
        obtain ⟨cb, cw, gb, gw, tm, hcb, hcw, hgb, hgw, hgbest, hhist⟩ := hend.hist
        obtain ⟨g, k1, k2⟩ := hsv.record
        rw [k1] at hgb
        obtain rfl := Option.some.inj hgb
        have hB := getBetterAgent_cases cb g c.P.mm
        have hgl : s'.hist.globalBest.getLast? = some s'.gbest := by rw [hhist, hgbest]; simp
        refine ⟨⟨hgl, ?_⟩, by rw [hend.pop]; exact hne hcb.1, fun a ha => ?_, by rw [hend.ext]; exact hj'⟩
        rotate_left
        · rw [hend.pop] at ha
          rw [hgbest]
          exact hB.2.1.trans (hcb.2 a (hmem ha))
        intro x hx
        rw [hend.log] at hx
        rw [hgbest]
        obtain ⟨a, ha, hn⟩ := hsv.log x hx
        rcases List.mem_cons.1 ha with rfl | ha
        · exact hB.2.2.trans (k2.trans hn)
        · exact hB.2.1.trans ((hcb.2 a ha).trans hn)) c.epoch 0 s1 ⟨hs1, by rw [e4, hs0e]; exact hne hbest.1, by rw [e2, e4, hs0e]; exact fun a ha => hbest.2 a (hmem ha), e5⟩ (by omega)
  obtain ⟨e, -, -, h3, h4⟩ := Wp.elim hloop g5
  exact h4.1.2

/-! ## the first population -/

section init
variable {mkExt : Vec d K → D c X}

theorem Qb.agentsOf : ∀ {xs : List (Vec d K)}, Qb (agentsOf mkExt xs : B c _) (fun l => l) (fun l => l.length = xs.length)
  | [] => by unfold Mealpy.agentsOf; rw [List.mapM_nil]; exact .pure rfl
  | x :: xs => by
    have ih := Qb.agentsOf (xs := xs)
    unfold Mealpy.agentsOf at ih ⊢
    rw [List.mapM_cons]
    exact .bind Qb.agentOf fun a _ => .bind ih fun l hl => .pure ⟨⟨by simp [hl], fun b hb => ⟨b, by rw [List.mem_singleton.1 hb]; exact List.mem_cons_self, NoWorse.rfl⟩⟩,
      fun b hb => ⟨b, List.mem_cons_of_mem _ hb, NoWorse.rfl⟩⟩

theorem mapM_some_length {f : α → Option β} : ∀ {l : List α} {xs : List β}, l.mapM f = some xs → xs.length = l.length
  | [], xs, h => by rw [List.mapM_nil] at h; cases h; rfl
  | a :: l, xs, h => by
    rw [List.mapM_cons] at h
    cases hf : f a with
    | none => rw [hf] at h; cases h
    | some b =>
      cases hl : l.mapM f with
      | none => rw [hf, hl] at h; cases h
      | some ys =>
        rw [hf, hl] at h
        cases h
        simp [mapM_some_length hl]

theorem pendingOf_len {xs : List (Vec d K)} : DT (fun _ => True) (pendingOf mkExt xs : D c _) (fun l => l.length = xs.length) := by
  unfold pendingOf
  exact DT.mono (DT.mapM' (Q := fun _ _ => True) fun x _ => DT.any) fun l h => h.length_eq.symm

theorem Qb.throw {e : Err} {H : α → List (Agent d K X)} {R : α → Prop} : Qb (fun _ => .error e : B c α) H R := fun _ => trivial

theorem Qb.beforeInit (hE : c.E.Lawful) {st : Starting K} :
    Qb (beforeInit mkExt st : B c _) (fun p => p.getD []) (fun p => (st = .none → p = none) ∧ ∀ l, p = some l → l.length = c.popSize) := by
  unfold Mealpy.beforeInit
  split
  · exact .pure ⟨fun _ => rfl, fun l h => by cases h⟩
  · exact .throw
  · exact .throw
  · rename_i l
    split
    · exact .throw
    · rename_i hl
      split
      · exact .throw
      · split
        · exact .throw
        · split
          · exact .throw
          · rename_i xs hxs
            have hn : xs.length = c.popSize := by rw [mapM_some_length hxs]; simpa using hl
            split
            · exact .bind0 (.liftDR pendingOf_len) fun pend hp => .bind (Qb.updateTargets hE) fun l hl =>
                .pure ⟨⟨by simp, fun l' h => by cases h; rw [hl, List.length_map, hp, hn]⟩, fun a ha => ⟨a, ha, NoWorse.rfl⟩⟩
            · exact .bind Qb.agentsOf fun l hl => .pure ⟨⟨by simp, fun l' h => by cases h; rw [hl, hn]⟩, fun a ha => ⟨a, ha, NoWorse.rfl⟩⟩

/-- the population given, if any, has the size asked for -/
def Given (c : Cfg d K) (p : Option (List (Agent d K X))) : Prop := ∀ l, p = some l → l.length = c.popSize

theorem Qb.startPop (hE : c.E.Lawful) (hP : c.P.Lawful) {p : Option (List (Agent d K X))} (hp : Given c p) :
    Qb (startPop mkExt p : B c _) (fun l => l) (fun l => l.length = c.popSize ∧ ∀ a ∈ p.getD [], a ∈ l) := by
  unfold Mealpy.startPop
  split
  · exact .pure ⟨hp _ rfl, fun a ha => ha⟩
  · exact (Qb.generatePopulation hE hP).weak fun _ h => ⟨h, by simp⟩

/-- an initialization that covers the starting population -/
theorem Qb.initial {A : Algo c X Y} {J : Y → Prop} (hE : c.E.Lawful) (h : ∀ y p, Given c p → Qb (A.initialization y p) (fun r => r.1)
    (fun r => J r.2 ∧ ∀ a ∈ p.getD [], ∃ e ∈ r.1, NoWorse c.P.mm e.fit a.fit)) (o : RunOpts K) : Qb (initialPop A o) (fun r => r.1) (fun r => J r.2) := by
  unfold initialPop
  exact .bind0 .liftD fun y _ => .bind (Qb.beforeInit hE) fun p hp => h y p hp.2

/-- as before, for a run without starting solutions -/
theorem Qb.initialNone {A : Algo c X Y} {J : Y → Prop} (hE : c.E.Lawful) (h : ∀ y, Qb (A.initialization y none) (fun r => r.1) (fun r => J r.2)) (o : RunOpts K)
    (ho : o.starting = .none) : Qb (initialPop A o) (fun r => r.1) (fun r => J r.2) := by
  unfold initialPop
  exact .bind0 .liftD fun y _ => .bind (Qb.beforeInit hE) fun p hp => by
    obtain rfl := hp.1 ho
    exact (h y).weak fun r hr => ⟨hr, by simp⟩

theorem Qb.defaultInit (hE : c.E.Lawful) (hP : c.P.Lawful) {y : Y} {p : Option (List (Agent d K X))} :
    Qb (Mealpy.defaultInit mkExt y p : B c _) (fun r => r.1) (fun r => True ∧ ∀ a ∈ p.getD [], ∃ e ∈ r.1, NoWorse c.P.mm e.fit a.fit) := by
  unfold Mealpy.defaultInit
  split
  · exact .pure ⟨trivial, fun a ha => ⟨a, ha, NoWorse.rfl⟩⟩
  · exact .bind (Qb.generatePopulation hE hP) fun l _ => .pure ⟨by simp, fun a ha => ⟨a, ha, NoWorse.rfl⟩⟩

end init

theorem Calm.pure {J : Y → Prop} : Calm J (Pure.pure () : M c X Y Unit) := fun s hs => Wp.pure ⟨rfl, rfl, rfl, rfl, hs⟩

/-- An algorithm that keeps what it evaluates: if `fresh`, then only without starting solutions; `J` is what its attributes always satisfy. -/
structure Keeper (fresh : Bool) (J : Y → Prop) (A : Algo c X Y) : Prop where
  init : ∀ o : RunOpts K, (fresh = true → o.starting = .none) → Qb (initialPop A o) (fun r => r.1) (fun r => J r.2)
  before : Calm J A.beforeMain
  evolve : ∀ ep r q y, q ≠ [] → (∀ a ∈ q, NoWorse c.P.mm r.fit a.fit) → J y → Kp r q y [] (A.evolve ep) (InPop []) (fun _ _ y' => J y')

/-- no condition on the attributes -/
abbrev Free : Y → Prop := fun _ => True

theorem Keeper.best {fresh : Bool} {J : Y → Prop} {A : Algo c X Y} (h : Keeper fresh J A) (hE : c.E.Lawful) {o : RunOpts K} (ho : fresh = true → o.starting = .none) {b : Base c}
    (hb : b.log = []) {s : St c X Y} {f : FinalHist d K X} (hs : solve A o b = .ok (s, f)) :
    ∀ x ∈ s.base.log, NoWorse c.P.mm s.gbest.fit (c.P.target x).fitness :=
  keeps_best J hE (fun o' e => h.init o' fun hf => e.trans (ho hf)) h.before h.evolve hb hs

theorem Keeper.plain (hE : c.E.Lawful) (hP : c.P.Lawful) {sf : Bool} {ev : Nat → M c Unit Unit Unit} (h : ∀ ep r q y, Kp r q y [] (ev ep) (InPop []) Any3) :
    Keeper false Free (Algo.plain sf ev) := ⟨fun o _ => Qb.initial hE (fun y p _ => Qb.defaultInit hE hP) o, .pure, fun ep r q y _ _ _ => h ep r q y⟩

theorem Keeper.full (hE : c.E.Lawful) (hP : c.P.Lawful) {sf : Bool} {mk : Vec d K → D c X} {iv : D c Y} {ev : Nat → M c X Y Unit}
    (h : ∀ ep r q y, Kp r q y [] (ev ep) (InPop []) Any3) :
    Keeper false Free (Algo.full sf mk iv ev) := ⟨fun o _ => Qb.initial hE (fun y p _ => Qb.defaultInit hE hP) o, .pure, fun ep r q y _ _ _ => h ep r q y⟩

theorem Keeper.pre (hE : c.E.Lawful) (hP : c.P.Lawful) {sf : Bool} {mk : Vec d K → D c X} {iv : D c Y} {bf : St c X Y → D c Y} {ev : Nat → M c X Y Unit}
    (h : ∀ ep r q y, Kp r q y [] (ev ep) (InPop []) Any3) :
    Keeper false Free (Algo.pre sf mk iv bf ev) := ⟨fun o _ => Qb.initial hE (fun y p _ => Qb.defaultInit hE hP) o,
      fun s _ => Wp.bind (Wp.get (Wp.bind (Wp.draw DT.any fun y r v _ => Wp.modify ⟨rfl, rfl, rfl, rfl, trivial⟩))), fun ep r q y _ _ _ => h ep r q y⟩

theorem Keeper.custom (hE : c.E.Lawful) {sf : Bool} {mk : Vec d K → D c X} {iv : D c Y} {init : Y → Option (List (Agent d K X)) → B c (List (Agent d K X) × Y)}
    {ev : Nat → M c X Y Unit} (hi : ∀ y p, Given c p → Qb (init y p) (fun r => r.1) (fun r => ∀ a ∈ p.getD [], ∃ e ∈ r.1, NoWorse c.P.mm e.fit a.fit))
    (h : ∀ ep r q y, Kp r q y [] (ev ep) (InPop []) Any3) :
    Keeper false Free (Algo.custom sf mk iv init ev) :=
  ⟨fun o _ => Qb.initial hE (fun y p hp => (hi y p hp).weak fun _ h => ⟨trivial, h⟩) o, .pure, fun ep r q y _ _ _ => h ep r q y⟩

theorem Keeper.customFresh (hE : c.E.Lawful) {sf : Bool} {mk : Vec d K → D c X} {iv : D c Y} {init : Y → Option (List (Agent d K X)) → B c (List (Agent d K X) × Y)}
    {ev : Nat → M c X Y Unit} (hi : ∀ y, Qb (init y none) (fun r => r.1) Any) (h : ∀ ep r q y, Kp r q y [] (ev ep) (InPop []) Any3) :
    Keeper true Free (Algo.custom sf mk iv init ev) := ⟨fun o ho => Qb.initialNone hE hi o (ho rfl), .pure, fun ep r q y _ _ _ => h ep r q y⟩

end Mealpy
