import Verif.Keepers3
import Verif.Alg.Sharing
import Verif.Alg.HBO

/-!
# Keeping what was evaluated when arrays are shared

`Verif/Keep.lean` with fitness values in place of agents: writing into an array that several agents hold changes their positions, and that of the best
agent, but not their targets.
-/

set_option linter.unusedSectionVars false
set_option linter.unusedVariables false

namespace Mealpy
open Spec

variable {d : Nat} {K : Type} [Num K] {c : Cfg d K} {X Y α β : Type}

/-- the fitness of each agent -/
abbrev vals (l : List (Agent d K X)) : List K := l.map Agent.fit

/-- the record has not got worse than `f`, and `f` or a value of `V` covers each evaluated point -/
structure Cov (f : K) (V : List K) (s : St c X Y) : Prop where
  record : ∃ g, s.hist.globalBest.getLast? = some g ∧ NoWorse c.P.mm g.fit f
  log : ∀ x ∈ s.base.log, ∃ v ∈ f :: V, NoWorse c.P.mm v (c.P.target x).fitness

/-- every value of `V` is covered by `f` or by a value of `W` -/
def DomV (mm : MinMax) (f : K) (V W : List K) : Prop := ∀ a ∈ V, ∃ b ∈ f :: W, NoWorse mm b a

section domv
variable {mm : MinMax} {f : K} {V W L : List K}

theorem DomV.sub (h : ∀ a ∈ V, a ∈ W) : DomV mm f V W := fun a ha => ⟨a, List.mem_cons_of_mem _ (h a ha), NoWorse.rfl⟩
theorem DomV.rfl : DomV mm f V V := .sub fun _ h => h
theorem DomV.nil : DomV mm f [] W := fun _ h => by cases h
theorem DomV.trans (h : DomV mm f V W) (h' : DomV mm f W L) : DomV mm f V L := fun a ha => by
  obtain ⟨b, hb, hn⟩ := h a ha
  rcases List.mem_cons.1 hb with rfl | hb
  · exact ⟨_, List.mem_cons_self, hn⟩
  · obtain ⟨e, he, hn'⟩ := h' b hb
    exact ⟨e, he, hn'.trans hn⟩
theorem DomV.append (h : DomV mm f V L) (h' : DomV mm f W L) : DomV mm f (V ++ W) L := fun a ha => by
  rcases List.mem_append.1 ha with ha | ha
  · exact h a ha
  · exact h' a ha
theorem DomV.left (h : DomV mm f V W) : DomV mm f V (W ++ L) := h.trans (.sub fun _ h => List.mem_append_left _ h)
theorem DomV.right (h : DomV mm f V W) : DomV mm f V (L ++ W) := h.trans (.sub fun _ h => List.mem_append_right _ h)
theorem DomV.all {b : K} (hb : b ∈ W) (hn : ∀ a ∈ V, NoWorse mm b a) : DomV mm f V W := fun a ha => ⟨b, List.mem_cons_of_mem _ hb, hn a ha⟩
theorem DomV.set {i : Nat} {old a : K} (ho : V[i]? = some old) (hn : NoWorse mm a old) : DomV mm f V (V.set i a) := fun x hx => by
  obtain ⟨k, hk, rfl⟩ := List.getElem_of_mem hx
  have hi := SARO.lt_of_some ho
  by_cases hki : k = i
  · subst hki
    rw [List.getElem?_eq_getElem hk] at ho
    exact ⟨a, List.mem_cons_of_mem _ (List.mem_of_getElem? (List.getElem?_set_self hi)), by rw [Option.some.inj ho]; exact hn⟩
  · exact ⟨_, List.mem_cons_of_mem _ (List.mem_of_getElem? (i := k) (by rw [List.getElem?_set_ne (by omega), List.getElem?_eq_getElem hk])), NoWorse.rfl⟩
theorem DomV.mem_set {i : Nat} {a : K} (hi : i < V.length) : a ∈ V.set i a := List.mem_of_getElem? (List.getElem?_set_self hi)

end domv

theorem Cov.dom {f : K} {V W : List K} {s : St c X Y} (h : Cov f V s) (hd : DomV c.P.mm f V W) : Cov f W s := ⟨h.record, fun x hx => by
  obtain ⟨a, ha, hn⟩ := h.log x hx
  rcases List.mem_cons.1 ha with rfl | ha
  · exact ⟨_, List.mem_cons_self, hn⟩
  · obtain ⟨b, hb, hn'⟩ := hd a ha
    exact ⟨b, hb, hn'.trans hn⟩⟩

/-- started with the fitness values `q` and the attributes `y`, and with `V` covering what was evaluated, the code leaves what `F` says covering it -/
def Fp (f : K) (q : List K) (y : Y) (V : List K) (m : M c X Y α) (F : α → List K → Y → List K) (R : α → List K → Y → Prop) : Prop :=
  ∀ s, vals s.pop = q → s.ext = y → Cov f V s → Wp (fun _ => True) m s (fun a s' => Cov f (F a (vals s'.pop) s'.ext) s' ∧ R a (vals s'.pop) s'.ext)

section fp
variable {f : K} {q : List K} {y : Y} {V : List K} {F : α → List K → Y → List K} {R : α → List K → Y → Prop} {F' : β → List K → Y → List K} {R' : β → List K → Y → Prop}
  {H : α → List (Agent d K X)} {S : α → Prop}

theorem Fp.pre {m : M c X Y α} {V' : List K} (hd : DomV c.P.mm f V V') (h : Fp f q y V' m F R) : Fp f q y V m F R := fun s hq hy hs => h s hq hy (hs.dom hd)

theorem Fp.post {m : M c X Y α} {F2 : α → List K → Y → List K} {R2 : α → List K → Y → Prop} (h : Fp f q y V m F R)
    (hd : ∀ a q' y', R a q' y' → DomV c.P.mm f (F a q' y') (F2 a q' y') ∧ R2 a q' y') : Fp f q y V m F2 R2 := fun s hq hy hs =>
  Wp.mono (h s hq hy hs) fun a s' h => ⟨h.1.dom (hd _ _ _ h.2).1, (hd _ _ _ h.2).2⟩

theorem Fp.pure {a : α} (h : DomV c.P.mm f V (F a q y)) (hR : R a q y) : Fp f q y V (Pure.pure a : M c X Y α) F R := fun s hq hy hs =>
  Wp.pure (by rw [hq, hy]; exact ⟨hs.dom h, hR⟩)

theorem Fp.bind {m : M c X Y α} {g : α → M c X Y β} (h : Fp f q y V m F R) (h' : ∀ a q' y', R a q' y' → Fp f q' y' (F a q' y') (g a) F' R') :
    Fp f q y V (m >>= g) F' R' := fun s hq hy hs =>
  Wp.bind (Wp.mono (h s hq hy hs) fun a s1 h1 => h' a _ _ h1.2 s1 rfl rfl h1.1)

theorem Cov.quiet {s s' : St c X Y} {L : List (Agent d K X)} (h : Cov f V s) (h4 : s'.hist = s.hist)
    (h5 : ∃ xs, s'.base.log = s.base.log ++ xs ∧ ∀ x ∈ xs, ∃ b ∈ L, NoWorse c.P.mm b.fit (c.P.target x).fitness) : Cov f (V ++ vals L) s' := by
  refine ⟨h4 ▸ h.record, fun x hx => ?_⟩
  obtain ⟨xs, h5, h6⟩ := h5
  rw [h5] at hx
  rcases List.mem_append.1 hx with hx | hx
  · obtain ⟨a, ha, hn⟩ := h.log x hx
    exact ⟨a, by simp only [List.mem_cons, List.mem_append] at ha ⊢; tauto, hn⟩
  · obtain ⟨a, ha, hn⟩ := h6 x hx
    exact ⟨a.fit, List.mem_cons_of_mem _ (List.mem_append_right _ (List.mem_map.2 ⟨a, ha, Eq.refl _⟩)), hn⟩

theorem Fp.bindQ {m : M c X Y α} {g : α → M c X Y β} (h : Qt m H S) (h' : ∀ a, S a → Fp f q y (V ++ vals (H a)) (g a) F' R') : Fp f q y V (m >>= g) F' R' :=
  fun s hq hy hs => Wp.bind (Wp.mono (h s) fun a s1 ⟨h1, h2, h3, h4, h5, h6⟩ => h' a h6 s1 (by rw [h1, hq]) (h2.trans hy) (hs.quiet h4 h5))

theorem Fp.bind0 {m : M c X Y α} {g : α → M c X Y β} (h : Qt m (fun _ => []) S) (h' : ∀ a, S a → Fp f q y V (g a) F' R') : Fp f q y V (m >>= g) F' R' :=
  .bindQ h fun a ha => by rw [vals, List.map_nil, List.append_nil]; exact h' a ha

theorem Fp.bindDraw {m : D c α} {g : α → M c X Y β} (h' : ∀ a, Fp f q y V (g a) F' R') : Fp f q y V (draw m >>= g) F' R' := .bind0 Qt.draw fun a _ => h' a

theorem Fp.bindGet {g : St c X Y → M c X Y β} (h' : ∀ s : St c X Y, vals s.pop = q → s.ext = y → Fp f q y V (g s) F' R') :
    Fp f q y V (get >>= g) F' R' := fun s hq hy hs => Wp.bind (Wp.get (h' s hq hy s hq hy hs))

theorem Fp.bindPop {i : Nat} {g : Agent d K X → M c X Y β} (h' : ∀ a, q[i]? = some a.fit → Fp f q y V (g a) F' R') : Fp f q y V (popAt i >>= g) F' R' :=
  fun s hq hy hs => Wp.bind (Wp.any (by
    intro a s' h
    unfold Mealpy.popAt at h
    split at h
    · rename_i b hb
      injection h with h
      obtain ⟨rfl, rfl⟩ := Prod.mk.inj h
      exact h' b (by rw [← hq, List.getElem?_map, hb]; rfl) s hq hy hs
    · cases h))

theorem Fp.setAt {i : Nat} {a : Agent d K X} {F : Unit → List K → Y → List K} {R : Unit → List K → Y → Prop}
    (h : i < q.length → DomV c.P.mm f V (F () (q.set i a.fit) y) ∧ R () (q.set i a.fit) y) : Fp f q y V (setAt i a : M c X Y Unit) F R := fun s hq hy hs => Wp.any (by
  intro u s' h1
  unfold Mealpy.setAt at h1
  split at h1
  · rename_i hi
    injection h1 with h1
    obtain ⟨-, rfl⟩ := Prod.mk.inj h1
    have hi' : i < q.length := by rw [← hq, List.length_map]; exact hi
    show Cov f (F () (vals (s.pop.set i a)) s.ext) _ ∧ R () (vals (s.pop.set i a)) s.ext
    rw [vals, List.map_set, hy, show s.pop.map Agent.fit = q from hq]
    exact ⟨Cov.dom ⟨hs.record, hs.log⟩ (h hi').1, (h hi').2⟩
  · cases h1)

theorem Fp.setPop {l : List (Agent d K X)} {F : Unit → List K → Y → List K} {R : Unit → List K → Y → Prop}
    (h : DomV c.P.mm f V (F () (vals l) y) ∧ R () (vals l) y) : Fp f q y V (setPop l : M c X Y Unit) F R := fun s hq hy hs => by
  unfold Mealpy.setPop
  refine Wp.modify ?_
  show Cov f (F () (vals l) s.ext) _ ∧ R () (vals l) s.ext
  rw [hy]
  exact ⟨Cov.dom ⟨hs.record, hs.log⟩ h.1, h.2⟩

theorem Fp.modExt {g : Y → Y} {F : Unit → List K → Y → List K} {R : Unit → List K → Y → Prop}
    (h : DomV c.P.mm f V (F () q (g y)) ∧ R () q (g y)) : Fp f q y V (modExt g : M c X Y Unit) F R := fun s hq hy hs => by
  unfold Mealpy.modExt
  refine Wp.modify ?_
  show Cov f (F () (vals s.pop) (g s.ext)) _ ∧ R () (vals s.pop) (g s.ext)
  rw [hq, hy]
  exact ⟨Cov.dom ⟨hs.record, hs.log⟩ h.1, h.2⟩

theorem Fp.bindExt {g : Y → Y} {k : Unit → M c X Y β} (h' : Fp f q (g y) V (k ()) F' R') : Fp f q y V (Mealpy.modExt g >>= k) F' R' :=
  .bind (F := fun _ _ _ => V) (R := fun _ q' y' => q' = q ∧ y' = g y) (.modExt ⟨.rfl, rfl, rfl⟩) fun _ q' y' ⟨h1, h2⟩ => by subst h1 h2; exact h'

theorem Fp.ite {p : Prop} [Decidable p] {m n : M c X Y α} (h : p → Fp f q y V m F R) (h' : ¬ p → Fp f q y V n F R) : Fp f q y V (if p then m else n) F R := by
  split
  · rename_i hp; exact h hp
  · rename_i hp; exact h' hp

theorem Fp.iter {g : Nat → α → M c X Y α} {n : Nat} {a : α} (I : Nat → α → List K → Y → List K)
    (P : Nat → α → List K → Y → Prop) (h0 : DomV c.P.mm f V (I 0 a q y)) (p0 : P 0 a q y)
    (h : ∀ i a q y, i < n → P i a q y → Fp f q y (I i a q y) (g i a) (I (i + 1)) (P (i + 1))) : Fp f q y V (iter n g a : M c X Y α) (I n) (P n) := fun s hq hy hs => by
  refine Wp.iter (fun i a (s' : St c X Y) => Cov f (I i a (vals s'.pop) s'.ext) s' ∧ P i a (vals s'.pop) s'.ext) n ⟨by rw [hq, hy]; exact hs.dom h0, by rw [hq, hy]; exact p0⟩ ?_
  rintro i a s1 hi ⟨h1, h2⟩
  exact h i a _ _ hi h2 s1 rfl rfl h1

theorem Fp.noSave {l : List (Agent d K X)} {F : List (Agent d K X) × Agent d K X → List K → Y → List K} {R : List (Agent d K X) × Agent d K X → List K → Y → Prop}
    (h : ∀ b, DomV c.P.mm f V (F b q y) ∧ R b q y) :
    Fp f q y V (updateGlobalBestNoSave l : M c X Y _) F R := fun s hq hy hs => Wp.any (by
  intro a s' h1
  unfold Mealpy.updateGlobalBestNoSave at h1
  simp only at h1
  split at h1
  · rename_i cb cw lb gb lw gw e1 e2 e3 e4 e5 e6
    injection h1 with h1
    obtain ⟨rfl, rfl⟩ := Prod.mk.inj h1
    show Cov f (F _ (vals s.pop) s.ext) _ ∧ R _ (vals s.pop) s.ext
    rw [hq, hy]
    refine ⟨Cov.dom ⟨?_, hs.log⟩ (h _).1, (h _).2⟩
    obtain ⟨g, hg, hn⟩ := hs.record
    refine ⟨getBetterAgent cb gb c.P.mm, ?_, ?_⟩
    · show (setLast s.hist.globalBest _).getLast? = _
      simp [setLast]
    · rw [e4] at hg
      obtain rfl := Option.some.inj hg
      exact (getBetterAgent_cases cb gb c.P.mm).2.2.trans hn
  · cases h1)

end fp

theorem fit_rewrite {r : Nat} {v : Vec d K} (a : Agent d K Nat) : (rewrite r v a).fit = a.fit := by
  unfold rewrite
  split <;> rfl

theorem vals_rewrite {r : Nat} {v : Vec d K} (l : List (Agent d K Nat)) : vals (l.map (rewrite r v)) = vals l := by
  rw [vals, List.map_map]
  exact List.map_congr_left fun a _ => fit_rewrite a

/-- writing into an array changes no fitness -/
theorem Fp.poke {f : K} {q : List K} {y : Y} {V : List K} {r : Nat} {v : Vec d K} {F : Unit → List K → Y → List K} {R : Unit → List K → Y → Prop}
    (h : DomV c.P.mm f V (F () q y) ∧ R () q y) : Fp f q y V (Mealpy.poke r v : M c Nat Y Unit) F R := fun s hq hy hs => by
  unfold Mealpy.poke
  refine Wp.modify ?_
  show Cov f (F () (vals (s.pop.map (rewrite r v))) s.ext) _ ∧ R () (vals (s.pop.map (rewrite r v))) s.ext
  rw [vals_rewrite, hq, hy]
  refine ⟨Cov.dom ⟨?_, hs.log⟩ h.1, h.2⟩
  obtain ⟨g, hg, hn⟩ := hs.record
  exact ⟨rewrite r v g, by show (s.hist.globalBest.map _).getLast? = _; rw [List.getLast?_map, hg]; rfl, by rw [fit_rewrite]; exact hn⟩

theorem Fp.bindPoke {f : K} {q : List K} {y : Y} {V : List K} {r : Nat} {v : Vec d K} {k : Unit → M c Nat Y β} {F' : β → List K → Y → List K} {R' : β → List K → Y → Prop}
    (h' : Fp f q y V (k ()) F' R') : Fp f q y V (Mealpy.poke r v >>= k) F' R' :=
  .bind (F := fun _ _ _ => V) (R := fun _ q' y' => q' = q ∧ y' = y) (.poke ⟨.rfl, rfl, rfl⟩) fun _ q' y' ⟨h1, h2⟩ => by subst h1 h2; exact h'

/-- what `keeps_fit` asks of an algorithm; `J` is what the fitness values and the attributes always satisfy -/
structure FitKeeper (J : List K → Y → Prop) (A : Algo c X Y) : Prop where
  init : ∀ o : RunOpts K, Qb (initialPop A o) (fun r => r.1) (fun r => r.1.length = c.popSize)
  before : ∀ s, s.pop.length = c.popSize → Wp (fun _ => True) A.beforeMain s (fun _ s' => s'.hist = s.hist ∧ s'.gbest = s.gbest ∧ s'.base.log = s.base.log ∧ s'.pop = s.pop ∧ J (vals s'.pop) s'.ext)
  sort : A.sortFlag = true → ∀ q q' y, q.Perm q' → J q y → J q' y
  evolve : ∀ ep f q y, J q y → Fp f q y [] (A.evolve ep) (fun _ q' _ => q') (fun _ q' y' => J q' y')

/-- If the first population covers what was evaluated for it, and every epoch keeps the values of what it evaluates in the population, then the run returns
the best value it evaluated. -/
theorem FitKeeper.best {A : Algo c X Y} {J : List K → Y → Prop} (hk : FitKeeper J A) (hE : c.E.Lawful) {o : RunOpts K} {b : Base c} (hb : b.log = [])
    {s : St c X Y} {h : FinalHist d K X} (hs : solve A o b = .ok (s, h)) :
    ∀ x ∈ s.base.log, NoWorse c.P.mm s.gbest.fit (c.P.target x).fitness := by
  obtain ⟨o', bb, pop0, y, b2, s0, s1, g1, g2, g3, g4, g5, g6⟩ := solve_ok hs
  obtain ⟨o'', bb', ho, hos, hosp, hlog, hnone, hsome⟩ := startTermination_ok o b
  rw [g1] at ho
  injection ho with ho
  obtain ⟨rfl, rfl⟩ := Prod.mk.inj ho
  have hl1 : bb.log = [] := by rw [hlog, hb]
  obtain ⟨⟨xs, hx1, hx2⟩, hlen⟩ := Wp.elim (hk.init o' bb) g2
  rw [hl1, List.nil_append] at hx1
  obtain ⟨best, worst, hbest, hworst, hs0e⟩ := afterInit_ok hE g3
  have hs0 : Topped s0 := by
    rw [hs0e]
    refine ⟨rfl, fun x hx => ?_⟩
    have hx : x ∈ b2.log := hx
    rw [hx1] at hx
    obtain ⟨a, ha, hn⟩ := hx2 x hx
    exact (hbest.2 a ha).trans hn
  obtain ⟨e1, e2, e3, e4, e5⟩ := Wp.elim (hk.before s0 (by
    rw [hs0e]
    show (if A.sortFlag then (getSorted c.E.argsort pop0 c.P.mm).1 else pop0).length = _
    split
    · rw [getSorted_length hE.argsortLaw]; exact hlen
    · exact hlen)) g4
  have hs1 : Topped s1 := ⟨by rw [e1, e2]; exact hs0.1, by rw [e2, e3]; exact hs0.2⟩
  have hloop := mainLoop_wp (Er := fun _ => True) (A := A) (o := o') (fun k s => Topped s ∧ J (vals s.pop) s.ext) (by
      rintro k s ⟨hs, hj⟩ hkk
      refine Wp.mono (epochStep_wp (R := fun s1 => Cov s.gbest.fit (vals s1.pop) s1 ∧ J (vals s1.pop) s1.ext) hE ?_ (.inl fun _ => trivial)) ?_
      · intro r v
        refine Wp.mono (hk.evolve (k + 1) s.gbest.fit (vals s.pop) s.ext hj _ rfl rfl ?_) fun _ s' h => h
        exact ⟨⟨_, hs.1, NoWorse.rfl⟩, fun x hx => ⟨_, List.mem_cons_self, hs.2 x hx⟩⟩
      · rintro f s' ⟨s1, ⟨hsv, hj'⟩, hend, -⟩
        obtain ⟨cb, cw, gb, gw, tm, hcb, hcw, hgb, hgw, hgbest, hhist⟩ := hend.hist
        obtain ⟨g, k1, k2⟩ := hsv.record
        rw [k1] at hgb
        obtain rfl := Option.some.inj hgb
        have hB := getBetterAgent_cases cb g c.P.mm
        have hgl : s'.hist.globalBest.getLast? = some s'.gbest := by rw [hhist, hgbest]; simp
        refine ⟨⟨hgl, ?_⟩, ?_⟩
        · intro x hx
          rw [hend.log] at hx
          rw [hgbest]
          obtain ⟨v, hv, hn⟩ := hsv.log x hx
          rcases List.mem_cons.1 hv with rfl | hv
          · exact hB.2.2.trans (k2.trans hn)
          · obtain ⟨a, ha, rfl⟩ := List.mem_map.1 hv
            exact hB.2.1.trans ((hcb.2 a ha).trans hn)
        · rw [hend.pop, hend.ext]
          split
          · rename_i hsf
            exact hk.sort hsf _ _ _ ((getSorted_perm hE.argsortLaw s1.pop c.P.mm).symm.map _) hj'
          · exact hj') c.epoch 0 s1 ⟨hs1, e5⟩ (by omega)
  obtain ⟨e, -, -, h3, h4⟩ := Wp.elim hloop g5
  exact h4.1.2

theorem Qb.initialLen {A : Algo c X Y} (hE : c.E.Lawful) (h : ∀ y p, Given c p → Qb (A.initialization y p) (fun r => r.1)
    (fun r => r.1.length = c.popSize ∧ ∀ a ∈ p.getD [], ∃ e ∈ r.1, NoWorse c.P.mm e.fit a.fit)) (o : RunOpts K) :
    Qb (initialPop A o) (fun r => r.1) (fun r => r.1.length = c.popSize) := by
  unfold initialPop
  exact .bind0 .liftD fun y _ => .bind (Qb.beforeInit hE) fun p hp => h y p hp.2

theorem qb_tagInit (hE : c.E.Lawful) (hP : c.P.Lawful) {y : Nat} {p : Option (List (Agent d K Nat))} (hp : Given c p) :
    Qb (tagInit y p : B c _) (fun r => r.1) (fun r => r.1.length = c.popSize ∧ ∀ a ∈ p.getD [], ∃ e ∈ r.1, NoWorse c.P.mm e.fit a.fit) := by
  unfold tagInit
  refine .bind (H := fun r => r.1) (R := fun r => r.1.length = c.popSize ∧ ∀ a ∈ p.getD [], ∃ e ∈ r.1, NoWorse c.P.mm e.fit a.fit) ?_ fun r hr => .pure ?_
  · unfold defaultInit
    split
    · exact .pure ⟨hp _ rfl, fun a ha => ⟨a, ha, NoWorse.rfl⟩⟩
    · exact .bind (Qb.generatePopulation hE hP) fun l hl => .pure ⟨⟨hl, by simp⟩, fun a ha => ⟨a, ha, NoWorse.rfl⟩⟩
  have hm : ∀ a ∈ r.1, ∃ e ∈ r.1.mapIdx (fun i a => { a with ext := i }), NoWorse c.P.mm e.fit a.fit := by
    intro a ha
    obtain ⟨k, hk, rfl⟩ := List.getElem_of_mem ha
    exact ⟨{ r.1[k] with ext := k }, List.mem_iff_getElem.2 ⟨k, by simpa using hk, by simp⟩, NoWorse.rfl⟩
  refine ⟨⟨by simpa using hr.1, fun a ha => ?_⟩, hm⟩
  obtain ⟨e, he, hn⟩ := hr.2 a ha
  obtain ⟨e', he', hn'⟩ := hm e he
  exact ⟨e', he', hn'.trans hn⟩

/-- there are `pop_size` agents -/
abbrev Full (c : Cfg d K) (q : List K) : Prop := q.length = c.popSize

theorem FitKeeper.tagged (hE : c.E.Lawful) (hP : c.P.Lawful) {sf : Bool} {ev : Nat → M c Nat Nat Unit}
    (h : ∀ ep f q y, Full c q → Fp f q y [] (ev ep) (fun _ q' _ => q') (fun _ q' _ => Full c q')) : FitKeeper (fun q _ => Full c q) (Algo.tagged sf ev : Algo c Nat Nat) :=
  ⟨Qb.initialLen hE fun y p hp => qb_tagInit hE hP hp, fun s hs => Wp.pure ⟨rfl, rfl, rfl, rfl, (List.length_map _).trans hs⟩,
    fun _ q q' _ hp hq => hp.length_eq.symm.trans hq, fun ep f q y hq => h ep f q y hq⟩

/-! ## Bees -/

section bees
variable {f : K} {q V : List K} {y : Nat}

theorem fp_fresh {F' : β → List K → Nat → List K} {R' : β → List K → Nat → Prop} {k : Nat → M c Nat Nat β} (h' : ∀ id y', Fp f q y' V (k id) F' R') :
    Fp f q y V (fresh >>= k) F' R' := by
  unfold fresh
  rw [bind_assoc]
  refine .bindGet fun s _ _ => ?_
  rw [bind_assoc]
  exact .bindExt (by rw [pure_bind]; exact h' _ _)

/-- the code changes no fitness and evaluates nothing -/
theorem fp_dances {r : K} {n idx : Nat} : Fp f q y V (collect n (fun _ => dance r idx) : M c Nat Nat _) (fun _ _ _ => V) (fun _ q' _ => q' = q) := by
  unfold collect
  refine .iter (fun _ _ _ _ => V) (fun _ _ q' _ => q' = q) .rfl rfl fun i l q' y' _ hq => ?_
  subst hq
  unfold dance
  simp only [bind_assoc]
  refine .bindPop fun me _ => .bindDraw fun j => .bindDraw fun u => .bindPoke <| .bindDraw fun x => ?_
  exact fp_fresh fun id y' => by rw [pure_bind]; exact .pure .rfl rfl

theorem fp_site (hE : c.E.Lawful) {r : K} {n idx : Nat} : Fp f q y V (site r n idx : M c Nat Nat _) (fun b _ _ => V ++ [b.fit]) (fun _ q' _ => q' = q) := by
  unfold site
  refine .bind fp_dances fun pend q' y' hq => ?_
  subst hq
  refine .bindQ (Qt.evalAll hE) fun kids _ => ?_
  have h : Qt (draw (bestAgent kids) : M c Nat Nat _) (fun _ => []) _ := .drawR (DT.bestT hE)
  intro s hq hy hs
  refine Wp.mono (h s) fun b s' ⟨h1, h2, h3, h4, h5, h6⟩ => ⟨?_, by rw [h1, hq]⟩
  have := (hs.quiet h4 h5).dom (W := V ++ [b.fit])
  refine this (.append (.append DomV.rfl.left (.all (b := b.fit) (by simp) fun v hv => ?_)) .nil)
  obtain ⟨a, ha, rfl⟩ := List.mem_map.1 hv
  exact h6.2 a ha

theorem qt_generate {id : Nat} : Qt (liftB (generateAgent (fun _ => pure id)) : M c Nat Nat (Agent d K Nat)) (fun a => [a]) Any := Qt.generateAgent

theorem fp_newRandom {F' : β → List K → Nat → List K} {R' : β → List K → Nat → Prop} {k : Agent d K Nat → M c Nat Nat β} (h' : ∀ a y', Fp f q y' (V ++ [a.fit]) (k a) F' R') :
    Fp f q y V (newRandom >>= k) F' R' := by
  unfold newRandom
  rw [bind_assoc]
  exact fp_fresh fun id y' => .bindQ qt_generate fun a _ => h' a y'

/-- the value at a site: that of the new bee, if any -/
def stay (o : Option (Agent d K Nat)) (v : K) : K := (o.map Agent.fit).getD v

theorem OriginalBeesA.fp_visit (hE : c.E.Lawful) {p : OriginalBeesA.Params K} {r : K} {idx : Nat} (hi : idx < q.length) :
    Fp f q y V (OriginalBeesA.visit p r idx : M c Nat Nat _) (fun o _ _ => V ++ [stay o (q[idx])]) (fun _ q' _ => q' = q) := by
  unfold OriginalBeesA.visit
  refine .ite (fun _ => .bind (fp_site hE) fun best q' y' hq => ?_) fun _ => fp_newRandom fun a y' => .pure .rfl rfl
  subst hq
  refine .bindPop fun me hme => .pure (.append DomV.rfl.left (.all (b := stay (if compareTarget best.tgt me.tgt c.P.mm then some best else none) q'[idx]) (by simp) fun v hv => ?_)) rfl
  obtain rfl := List.mem_singleton.1 hv
  rw [List.getElem?_eq_getElem hi] at hme
  split
  · exact NoWorse.rfl
  · rename_i h
    show NoWorse _ q'[idx] _
    rw [Option.some.inj hme]
    exact compareTarget_false (by simpa using h)

theorem OriginalBeesA.keeper (hE : c.E.Lawful) (hP : c.P.Lawful) {p : OriginalBeesA.Params K} : FitKeeper (fun q _ => Full c q) (OriginalBeesA.algo p : Algo c Nat Nat) := by
  refine .tagged hE hP fun ep f q y hq => ?_
  unfold OriginalBeesA.evolve collect
  refine .bind (.iter (fun _ acc q _ => List.zipWith stay acc q) (fun i acc q' _ => acc.length = i ∧ q' = q) .nil ⟨rfl, rfl⟩ fun i acc q' y' hi hP' => ?_) fun new q' y' hnew => ?_
  · obtain ⟨hl, rfl⟩ := hP'
    have hi' : i < q'.length := by have : q'.length = c.popSize := hq; omega
    refine .bind (OriginalBeesA.fp_visit hE hi') fun o q'' y'' hq'' => .pure (.append (.sub fun v hv => ?_) (.sub fun v hv => ?_)) ⟨by simp [hl], hq''⟩
    · subst hq''
      obtain ⟨k, hk, rfl⟩ := List.getElem_of_mem hv
      have hk' : k < acc.length ∧ k < q''.length := by simpa using hk
      exact List.mem_iff_getElem.2 ⟨k, by simp; omega, by simp [List.getElem_append_left hk'.1]⟩
    · subst hq''
      obtain rfl := List.mem_singleton.1 hv
      subst hl
      exact List.mem_iff_getElem.2 ⟨acc.length, by simp; omega, by simp⟩
  · obtain ⟨hl, rfl⟩ := hnew
    refine .bindGet fun s hs _ => .setPop ⟨.sub fun v hv => ?_, ?_⟩
    · obtain ⟨k, hk, rfl⟩ := List.getElem_of_mem hv
      subst hs
      have hk' : k < new.length ∧ k < s.pop.length := by simpa using hk
      refine List.mem_iff_getElem.2 ⟨k, by simp; omega, ?_⟩
      simp only [List.getElem_map, List.getElem_zipWith]
      unfold stay
      cases new[k] <;> rfl
    · subst hs
      have : s.pop.length = c.popSize := (List.length_map _).symm.trans hq
      simp [Full]
      omega

theorem ProbBeesA.keeper (hE : c.E.Lawful) (hP : c.P.Lawful) {p : ProbBeesA.Params K} : FitKeeper (fun q _ => Full c q) (ProbBeesA.algo p : Algo c Nat Nat) := by
  refine .tagged hE hP fun ep f q y hq => ?_
  unfold ProbBeesA.evolve
  refine .bindGet fun s _ _ => .post (.iter (fun i _ q' _ => q'.take i) (fun _ _ q' _ => Full c q') .nil hq fun i _ q' y' hi hq' => ?_) fun _ q' _ h => ⟨.sub fun v hv => List.mem_of_mem_take hv, h⟩
  have hi' : i < q'.length := by have : q'.length = c.popSize := hq'; omega
  have key : ∀ v, DomV c.P.mm f (q'.take i ++ [v]) ((q'.set i v).take (i + 1)) := fun v => by
    have e : List.take (i + 1) (q'.set i v) = q'.take i ++ [v] := by
      rw [List.take_add_one, List.take_set_of_le le_rfl, List.getElem?_set_self hi']
      rfl
    rw [e]
    exact .rfl
  refine .bindDraw fun g => .bindDraw fun u => .ite (fun _ => .bind (fp_site hE) fun best q'' y'' h => ?_) fun _ => fp_newRandom fun a y'' => .setAt fun _ => ⟨key _, by simpa [Full] using hq'⟩
  subst h
  refine .bindPop fun me hme => .ite (fun h => .setAt fun _ => ⟨key _, by simpa [Full] using hq'⟩) fun h => .pure (.append (.sub fun v hv => ?_) (.all (b := me.fit) ?_ fun v hv => ?_)) hq'
  · exact (List.take_sublist_take_left (by omega)).subset hv
  · exact List.mem_of_getElem? (i := i) (by rw [List.getElem?_take_of_lt (by omega)]; exact hme)
  · obtain rfl := List.mem_singleton.1 hv
    exact compareTarget_false (by simpa using h)

end bees

/-! ## THRO -/

namespace OriginalTHRO
variable {f : K} {q V W : List K} {y : Nat}

/-- an evaluated horse takes the place of one that it beats -/
theorem fp_contend {l : List (Agent d K Nat)} {i : Nat} {x : Vec d K} {F' : β → List K → Nat → List K} {R' : β → List K → Nat → Prop} {k : List (Agent d K Nat) → M c Nat Nat β}
    (h' : ∀ l' y', l'.length = l.length → DomV c.P.mm f (vals l) (vals l') → Fp f q y' (V ++ vals l') (k l') F' R') :
    Fp f q y (V ++ vals l) (contend l i x >>= k) F' R' := by
  unfold contend newAgent
  simp only [bind_assoc]
  refine .bindDraw fun x' => fp_fresh fun id y' => .bindQ (Qt.agentOf (mkExt := fun _ => Pure.pure id)) fun a _ => .bind0 (.drawR DT.nthT) fun me hme => ?_
  rw [pure_bind]
  have hme' : (vals l)[i]? = some me.fit := by rw [vals, List.getElem?_map, hme]; rfl
  split
  · rename_i h
    have hd : DomV c.P.mm f (vals l) (vals (l.set i a)) := by
      rw [vals, vals, List.map_set]
      exact .set hme' (compareTarget_true h)
    refine .pre ?_ (h' (l.set i a) y' (by simp) hd)
    refine .append (.append DomV.rfl.left hd.right) (DomV.right (.sub fun v hv => ?_))
    obtain rfl := List.mem_singleton.1 hv
    exact List.mem_map.2 ⟨a, List.mem_of_getElem? (List.getElem?_set_self (SARO.lt_of_some hme)), rfl⟩
  · rename_i h
    refine .pre ?_ (h' l y' rfl .rfl)
    refine .append .rfl (DomV.right (.all (List.mem_of_getElem? hme') fun v hv => ?_))
    obtain rfl := List.mem_singleton.1 hv
    exact compareTarget_false (by simpa using h)

/-- both stables -/
abbrev both (T KK : List (Agent d K Nat)) : List K := vals KK ++ vals T

theorem DomV.swap {mm : MinMax} {f : K} {A B : List K} : DomV mm f (A ++ B) (B ++ A) := .append DomV.rfl.right DomV.rfl.left

theorem fp_race {n : Nat} {p : K} {tb kb : Vec d K} {z : Race d K} :
    Fp f q y (both z.T z.KK) (race n p tb kb z : M c Nat Nat _) (fun z' _ _ => both z'.T z'.KK) (fun z' q' _ => q' = q ∧ z'.T.length = z.T.length ∧ z'.KK.length = z.KK.length) := by
  unfold race
  refine .bindDraw fun fs => .bindDraw fun lt => .bindDraw fun lk => .bindDraw fun pl => .bindDraw fun x => .bindDraw fun x2 => fp_contend fun T y' hT dT => .bindDraw fun x3 => .bindDraw fun x4 => ?_
  exact .pre DomV.swap (fp_contend fun KK y'' hK dK => .pure DomV.swap ⟨rfl, hT, hK⟩)

theorem fp_train {n ep idx : Nat} {z : Stable d K} :
    Fp f q y (both z.T z.KK) (train n ep idx z : M c Nat Nat _) (fun z' _ _ => both z'.T z'.KK) (fun z' q' _ => q' = q ∧ z'.T.length = z.T.length ∧ z'.KK.length = z.KK.length) := by
  unfold train
  refine .bindDraw fun me => .bindDraw fun v => .bindPoke ?_
  have e1 : ∀ (z : Stable d K) r v, both z.T z.KK = both (z.rewrite r v).T (z.rewrite r v).KK := fun z r v => by
    show vals z.KK ++ vals z.T = vals (z.KK.map _) ++ vals (z.T.map _)
    rw [vals_rewrite, vals_rewrite]
  rw [e1 z me.ext v]
  refine fp_contend fun T y' hT dT => .bindDraw fun me2 => .bindDraw fun v2 => .bindPoke ?_
  have e2 := e1 { z.rewrite me.ext v with T := T } me2.ext v2
  show Fp f q y' (both T (z.rewrite me.ext v).KK) _ _ _
  rw [show both T (z.rewrite me.ext v).KK = _ from e2]
  refine .pre DomV.swap (fp_contend fun KK y'' hK dK => .pure DomV.swap ⟨rfl, ?_, ?_⟩)
  · show (T.map _).length = _
    rw [List.length_map, hT]
    exact List.length_map _
  · rw [hK]
    show ((z.KK.map _).map _).length = _
    simp

theorem keeper (hE : c.E.Lawful) (hP : c.P.Lawful) : FitKeeper (fun q _ => Full c q) (OriginalTHRO.algo : Algo c Nat Nat) := by
  refine .tagged hE hP fun ep f q y hq => ?_
  unfold evolve
  refine .bindGet fun s hs _ => .bind0 (.drawR (DT.permutation hE)) fun order ho => .bind0 (.drawR (DT.repM (Q := fun _ => True) fun _ _ => DT.any)) fun pop hpop => ?_
  have hlen : pop.length = c.popSize := by
    rw [hpop.1, ho.length_eq, List.length_range, ← hq, ← hs, vals, List.length_map]
  refine .bind (F := fun _ _ _ => []) (R := fun _ _ _ => True) (.setPop ⟨.rfl, trivial⟩) fun _ q y _ => ?_
  refine .bindDraw fun masks => .bind (.iter (fun _ z _ _ => both z.T z.KK) (fun _ z _ _ => z.T.length + z.KK.length = c.popSize) .nil ?_ fun i z q y _ hz => .bindDraw fun m =>
    .post fp_race fun z' q' _ h => ⟨.rfl, by omega⟩) fun z q y hz => ?_
  · show (getSorted _ (pop.take _) _).1.length + (getSorted _ (pop.drop _) _).1.length = _
    rw [getSorted_length hE.argsortLaw, getSorted_length hE.argsortLaw, List.length_take, List.length_drop]
    omega
  refine .bind (F := fun _ _ _ => both z.T z.KK) (R := fun _ _ _ => True) (.noSave fun b => ⟨.rfl, trivial⟩) fun _ q y _ => .bindDraw fun bt => .bindDraw fun bk => ?_
  refine .bind (.iter (fun _ (z : Stable d K) _ _ => both z.T z.KK) (fun _ (z : Stable d K) _ _ => z.T.length + z.KK.length = c.popSize) .rfl hz fun i z q y _ hz =>
    .post fp_train fun z' q' _ h => ⟨.rfl, by omega⟩) fun z q y hz => .setPop ⟨?_, ?_⟩
  · rw [vals, List.map_append]
    exact DomV.swap
  · show (List.map _ _).length = _
    rw [List.length_map, List.length_append]
    exact hz

end OriginalTHRO

/-! ## HBO -/

namespace OriginalHBO

theorem swap_perm {l : List α} {i j : Nat} : (swap l i j).Perm l := by
  unfold swap
  split
  · rename_i a b ha hb
    have hi := SARO.lt_of_some ha
    have hj := SARO.lt_of_some hb
    rw [List.getElem?_eq_getElem hi] at ha
    rw [List.getElem?_eq_getElem hj] at hb
    obtain rfl := Option.some.inj ha
    obtain rfl := Option.some.inj hb
    exact List.set_set_perm hi hj
  · exact .refl _

theorem siftUp_perm {degree : Nat} {pop : List (Agent d K Nat)} : ∀ {fuel : Nat} {t : Int} {heap : List (Target K × Nat)}, (siftUp (c := c) degree pop fuel t heap).Perm heap
  | 0, _, _ => .refl _
  | fuel + 1, t, heap => by
    unfold siftUp
    split
    · exact .refl _
    · dsimp only
      split
      · split
        · exact .refl _
        · exact siftUp_perm.trans swap_perm
      · exact .refl _

theorem settle_perm {degree : Nat} : ∀ {fuel t : Nat} {heap : List (Target K × Nat)}, (settle (c := c) degree fuel t heap).Perm heap
  | 0, _, _ => .refl _
  | fuel + 1, t, heap => by
    unfold settle
    split
    · exact .refl _
    · dsimp only
      split
      · split
        · exact .refl _
        · exact settle_perm.trans swap_perm
      · exact .refl _

theorem heapify_perm {degree : Nat} {pop : List (Agent d K Nat)} : (heapify (c := c) degree pop).Perm (pop.zipIdx.map (fun q => (q.1.tgt, q.2))) := by
  unfold heapify
  have : ∀ (l : List (Agent d K Nat × Nat)) (h h' : List (Target K × Nat)), h.Perm h' →
      (l.foldl (fun heap q => siftUp (c := c) degree pop (q.2 + 1) q.2 (heap ++ [(q.1.tgt, q.2)])) h).Perm (h' ++ l.map (fun q => (q.1.tgt, q.2))) := by
    intro l
    induction l with
    | nil => intro h h' hp; simpa using hp
    | cons x l ih =>
      intro h h' hp
      rw [List.foldl_cons, List.map_cons, List.append_cons h']
      exact ih _ _ (siftUp_perm.trans (hp.append_right _))
  exact this _ _ _ (.refl [])

/-- the heap tells the fitness of the agents it refers to, and refers to each once -/
def Tells (q : List K) (heap : List (Target K × Nat)) : Prop := (heap.map Prod.snd).Nodup ∧ ∀ e ∈ heap, q[e.2]? = some e.1.fitness

theorem Tells.perm {q : List K} {h h' : List (Target K × Nat)} (hp : h.Perm h') (ht : Tells q h) : Tells q h' :=
  ⟨(hp.map _).nodup_iff.1 ht.1, fun e he => ht.2 e (hp.mem_iff.2 he)⟩

theorem tells_heapify {degree : Nat} {pop : List (Agent d K Nat)} : Tells (vals pop) (heapify (c := c) degree pop) := by
  refine Tells.perm heapify_perm.symm ⟨?_, fun e he => ?_⟩
  · rw [List.map_map]
    show (pop.zipIdx.map Prod.snd).Nodup
    rw [List.zipIdx_map_snd]
    exact List.nodup_range'
  · obtain ⟨x, hx, rfl⟩ := List.mem_map.1 he
    obtain ⟨a, i⟩ := x
    have := List.mem_zipIdx_iff_getElem?.1 hx
    show (vals pop)[i]? = some a.tgt.fitness
    rw [vals, List.getElem?_map, this]
    rfl

/-- one entry and its agent change together -/
theorem Tells.set {q : List K} {heap : List (Target K × Nat)} {k i : Nat} {t0 t : Target K} (ht : Tells q heap) (hk : heap[k]? = some (t0, i)) :
    Tells (q.set i t.fitness) (heap.set k (t, i)) := by
  have hk' := SARO.lt_of_some hk
  have hi : i < q.length := SARO.lt_of_some (ht.2 _ (List.mem_of_getElem? hk))
  have hsnd : (heap.set k (t, i)).map Prod.snd = heap.map Prod.snd := by
    rw [List.map_set]
    exact OriginalLSHADEcnEpSin.set_same (by rw [List.getElem?_map, hk]; rfl)
  refine ⟨hsnd ▸ ht.1, fun e he => ?_⟩
  obtain ⟨m, hm, rfl⟩ := List.getElem_of_mem he
  have hm' : m < heap.length := by simpa using hm
  by_cases hmk : m = k
  · subst hmk
    rw [List.getElem_set_self, List.getElem?_set_self hi]
  · rw [List.getElem_set_ne (by omega)]
    have hne : heap[m].2 ≠ i := by
      intro h
      have h1 : (heap.map Prod.snd)[m]'(by simpa using hm') = (heap.map Prod.snd)[k]'(by simpa using hk') := by
        rw [List.getElem_map, List.getElem_map, h]
        rw [List.getElem?_eq_getElem hk'] at hk
        rw [Option.some.inj hk]
      exact hmk ((List.Nodup.getElem_inj_iff ht.1).1 h1)
    rw [List.getElem?_set_ne (Ne.symm hne)]
    exact ht.2 _ (List.getElem_mem hm')

variable {f : K} {q : List K} {y : Vars K}

theorem fp_step {degree : Nat} {table : Nat → Int × Int} {ep k : Nat} (hy : Tells q y.heap) :
    Fp f q y q (step degree table ep k : M c Nat (Vars K) Unit) (fun _ q' _ => q') (fun _ q' y' => Tells q' y'.heap) := by
  unfold step
  refine .bindGet fun s hs hsy => .bindDraw fun par => .bind0 (.drawR DT.nthT) fun me hme => .bindPop fun cur hcur => .bindPop fun p _ => ?_
  rw [hsy] at hme
  have hq : q[me.2]? = some me.1.fitness := hy.2 _ (List.mem_of_getElem? hme)
  refine .bindDraw fun fi => .bindDraw fun fr => .bindPop fun fri _ => .bindDraw fun rr => .bindDraw fun rn => .bindPoke <| .bindDraw fun x => .bindGet fun s2 _ _ => .bindExt ?_
  refine .bindQ (Qt.getTarget (e := 0)) fun t _ => .ite (fun h => ?_) fun h => .modExt ⟨.append .rfl (.all (List.mem_of_getElem? hq) fun v hv => ?_), hy.perm settle_perm.symm⟩
  · refine .bind (F := fun _ q' _ => q') (R := fun _ q' (y' : Vars K) => q' = q.set me.2 t.fitness ∧ y'.heap = y.heap) (.setAt fun hi => ⟨.append (.set hq (compareTarget_true h)) (.all (b := t.fitness) (DomV.mem_set hi) fun v hv => ?_), rfl, rfl⟩) ?_
    · obtain rfl := List.mem_singleton.1 hv
      exact NoWorse.rfl
    · rintro _ q' y' ⟨rfl, hy'⟩
      refine .bindExt (.modExt ⟨.rfl, Tells.perm settle_perm.symm ?_⟩)
      show Tells _ (y'.heap.set k (t, me.2))
      rw [hy']
      exact hy.set hme
  · obtain rfl := List.mem_singleton.1 hv
    exact compareTarget_false (by simpa using h)

theorem keeper (hE : c.E.Lawful) (hP : c.P.Lawful) {degree : Nat} {table : Nat → Int × Int} :
    FitKeeper (fun q y => Tells q y.heap) (OriginalHBO.algo degree table : Algo c Nat (Vars K)) := by
  refine ⟨Qb.initialLen hE fun y p hp => ?_, fun s hs => ?_, fun h => ?_, fun ep f q y hJ => ?_⟩
  · exact .bind (qb_tagInit hE hP hp) fun r hr => .pure ⟨hr, fun a ha => ⟨a, ha, NoWorse.rfl⟩⟩
  · exact Wp.bind (Wp.get (Wp.modify ⟨rfl, rfl, rfl, rfl, tells_heapify⟩))
  · cases h
  · exact .iter (fun _ _ q _ => q) (fun _ _ q (y : Vars K) => Tells q y.heap) .nil hJ fun i _ q y _ h => fp_step h

end OriginalHBO

end Mealpy
