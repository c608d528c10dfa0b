import Verif.KeepFit
import Verif.Alg.GA
import Verif.Alg.Kit21

/-!
# Keeping what was evaluated: the genetic algorithms

The mutations write into the arrays of the parents; the fitness values stay.
-/

set_option linter.unusedSectionVars false
set_option linter.unusedVariables false

namespace Mealpy
open Spec

variable {d : Nat} {K : Type} [Num K] {c : Cfg d K} {X Y α β : Type}

theorem Fp.reshape {f : K} {q : List K} {y : Y} {V : List K} {g : List (Agent d K X) → List (Agent d K X)} {F : Unit → List K → Y → List K}
    {R : Unit → List K → Y → Prop} (h : ∀ l, vals l = q → DomV c.P.mm f V (F () (vals (g l)) y) ∧ R () (vals (g l)) y) :
    Fp f q y V (Mealpy.reshape g : M c X Y Unit) F R := fun s hq hy hs => by
  unfold Mealpy.reshape
  refine Wp.modify ?_
  show Cov f (F () (vals (g s.pop)) s.ext) _ ∧ R () (vals (g s.pop)) s.ext
  rw [hy]
  exact ⟨Cov.dom ⟨hs.record, hs.log⟩ (h _ hq).1, (h _ hq).2⟩

namespace GA
variable {p : Params K} {f : K} {q V : List K} {y : Nat}

theorem fp_write {a : Arr d K} {v : Vec d K} : Fp f q y V (a.write v : M c Nat Nat _) (fun _ _ _ => V) (fun _ q' _ => q' = q) := by
  unfold Arr.write
  split
  · exact .bindPoke (.pure .rfl rfl)
  · exact .pure .rfl rfl

theorem fp_mutate {a : Arr d K} : Fp f q y V (mutate p a : M c Nat Nat _) (fun _ _ _ => V) (fun _ q' _ => q' = q) := by
  unfold mutate
  refine .ite (fun _ => ?_) fun _ => ?_
  · split
    · exact .bindDraw fun i => fp_write
    · exact .bindDraw fun x => .bindDraw fun u => .pure .rfl rfl
  · split
    · exact .bindDraw fun i => fp_write
    · exact .bindDraw fun i => fp_write
    · exact .bindDraw fun i => .bindDraw fun l => fp_write
    · exact .bindDraw fun i => .bindDraw fun l => fp_write

theorem fp_pair : Fp f q y V (pair p : M c Nat Nat _) (fun _ _ _ => V) (fun l q' _ => l.length = 2 ∧ q' = q) := by
  unfold pair
  refine .bindGet fun s _ _ => .bindDraw fun ij => .bindDraw fun x => .bindDraw fun z => .bindDraw fun r => .bindDraw fun ab => ?_
  refine .bind fp_mutate fun a q' y' hq => ?_
  subst hq
  refine .bind fp_mutate fun b q'' y'' hq => ?_
  subst hq
  exact .bindDraw fun x1 => .bindDraw fun x2 => fp_fresh fun r1 _ => fp_fresh fun r2 _ => .pure .rfl ⟨rfl, rfl⟩

theorem fp_survive (hE : c.E.Lawful) (hq : Full c q) {new : List (Agent d K Nat)} (hn : new.length ≤ c.popSize) :
    Fp f q y (vals new) (survive new : M c Nat Nat Unit) (fun _ q' _ => q') (fun _ q' _ => Full c q') := by
  unfold survive
  refine .bindGet fun s hs _ => ?_
  have hlen : s.pop.length = c.popSize := by rw [← hq, ← hs, vals, List.length_map]
  refine .bind0 (.drawR (DT.repM (Q := fun i => i < c.popSize) fun i _ => DT.bind (DT.kwayIdx_tol hE (by omega) trivial) fun l hl => ?_)) fun ids hids => ?_
  · exact DT.mono DT.nthT fun i hi => by rw [← hlen]; exact hl i (List.mem_of_getElem? hi)
  · refine .ite (fun _ => fun s _ _ _ => trivial) fun hlt => .reshape fun l hl => ?_
    have hll : l.length = c.popSize := by rw [← hq, ← hl, vals, List.length_map]
    have hmem : ∀ u ∈ new.zip ids, u.2 < l.length := fun u hu => by rw [hll]; exact hids.2 _ (List.of_mem_zip (a := u.1) (b := u.2) hu).2
    refine ⟨fun v hv => ?_, ?_⟩
    · obtain ⟨a, ha, rfl⟩ := List.mem_map.1 hv
      obtain ⟨k, hk, rfl⟩ := List.mem_iff_getElem.1 ha
      have hki : k < ids.length := by omega
      have hi : ids[k] < l.length := by rw [hll]; exact hids.2 _ (List.getElem_mem _)
      refine ⟨_, List.mem_cons_of_mem _ (List.mem_map.2 ⟨getBetterAgent new[k] l[ids[k]] c.P.mm, List.mem_filterMap.2 ⟨(new[k], ids[k]), ?_, ?_⟩, rfl⟩), (getBetterAgent_cases _ _ _).2.1⟩
      · exact List.mem_iff_getElem.2 ⟨k, by simp; omega, by simp⟩
      · simp [List.getElem?_eq_getElem hi]
    · show (List.map _ _).length = _
      rw [List.length_map, List.length_filterMap_eq_countP, List.countP_eq_length.2, List.length_zip]
      · omega
      · rintro u hu
        have := hmem u hu
        simp [this]

theorem fp_evolve (hE : c.E.Lawful) {ep : Nat} (hq : Full c q) :
    Fp f q y [] (evolve p ep : M c Nat Nat Unit) (fun _ q' _ => q') (fun _ q' _ => Full c q') := by
  unfold evolve
  refine .bind (.iter (fun _ _ _ _ => []) (fun i (l : List (Vec d K × Nat)) q' _ => l.length = 2 * i ∧ q' = q) .rfl ⟨rfl, rfl⟩ fun i l q' y' _ h => ?_) fun kids q' y' h => ?_
  · obtain ⟨h1, rfl⟩ := h
    exact .bind fp_pair fun l' q'' y'' h => .pure .rfl ⟨by rw [List.length_append]; omega, h.2⟩
  · obtain ⟨h1, rfl⟩ := h
    exact .bindQ (Qt.evalAll hE) fun new hn => fp_survive hE hq (by omega)

theorem fp_single {e : Elite} : Fp f q y V (single p e : M c Nat Nat _) (fun _ _ _ => V) (fun _ q' _ => q' = q) := by
  unfold single
  refine .bindGet fun s _ _ => .bindDraw fun xy => .bindDraw fun r => .bindDraw fun ab => .bindDraw fun r' => ?_
  refine .bind fp_mutate fun a q' y' hq => ?_
  subst hq
  exact .bindDraw fun x1 => fp_fresh fun r1 _ => .pure .rfl rfl

theorem fp_eliteEvolve (hE : c.E.Lawful) {e : Elite} {ep : Nat} (hq : Full c q) :
    Fp f q y [] (eliteEvolve p e ep : M c Nat Nat Unit) (fun _ q' _ => q') (fun _ q' _ => Full c q') := by
  unfold eliteEvolve
  refine .bind (.iter (fun _ _ _ _ => []) (fun i (l : List (Vec d K × Nat)) q' _ => l.length = i ∧ q' = q) .rfl ⟨rfl, rfl⟩ fun i l q' y' _ h => ?_) fun kids q' y' h => ?_
  · obtain ⟨h1, rfl⟩ := h
    exact .bind fp_single fun l' q'' y'' h => .pure .rfl ⟨by simp [h1], h⟩
  · obtain ⟨h1, rfl⟩ := h
    refine .ite (fun _ => .bindGet fun s hs _ => .bindQ (Qt.evalAll hE) fun new hn => .setPop ⟨.rfl, ?_⟩) fun _ => .bindQ (Qt.evalAll hE) fun new hn => .reshape fun l hl => ⟨?_, ?_⟩
    · have hlen : s.pop.length = c.popSize := by rw [← hq, ← hs, vals, List.length_map]
      show (List.map _ _).length = _
      rw [List.length_map, hn, List.length_append, List.length_map, List.length_take]
      omega
    · rw [vals, vals, List.map_append]
      exact DomV.rfl.right
    · have hll : l.length = c.popSize := by rw [← hq, ← hl, vals, List.length_map]
      show (List.map _ _).length = _
      rw [List.length_map, List.length_append, List.length_take]
      omega

end GA

theorem BaseGA.keeper (hE : c.E.Lawful) (hP : c.P.Lawful) {p : GA.Params K} : FitKeeper (fun q _ => Full c q) (BaseGA.algo p : Algo c Nat Nat) :=
  .tagged hE hP fun ep f q y hq => GA.fp_evolve hE hq

theorem MultiGA.keeper (hE : c.E.Lawful) (hP : c.P.Lawful) {p : GA.Params K} : FitKeeper (fun q _ => Full c q) (MultiGA.algo p : Algo c Nat Nat) :=
  .tagged hE hP fun ep f q y hq => GA.fp_evolve hE hq

theorem SingleGA.keeper (hE : c.E.Lawful) (hP : c.P.Lawful) {p : GA.Params K} : FitKeeper (fun q _ => Full c q) (SingleGA.algo p : Algo c Nat Nat) :=
  .tagged hE hP fun ep f q y hq => GA.fp_evolve hE hq

theorem EliteSingleGA.keeper (hE : c.E.Lawful) (hP : c.P.Lawful) {p : GA.Params K} {e : GA.Elite} :
    FitKeeper (fun q _ => Full c q) (EliteSingleGA.algo p e : Algo c Nat Nat) := .tagged hE hP fun ep f q y hq => GA.fp_eliteEvolve hE hq

theorem EliteMultiGA.keeper (hE : c.E.Lawful) (hP : c.P.Lawful) {p : GA.Params K} {e : GA.Elite} :
    FitKeeper (fun q _ => Full c q) (EliteMultiGA.algo p e : Algo c Nat Nat) := .tagged hE hP fun ep f q y hq => GA.fp_eliteEvolve hE hq

end Mealpy
