import Verif.Alg.Kit16

/-! # The new agents first -/

set_option linter.unusedSectionVars false
set_option linter.unusedVariables false

namespace Mealpy
open Spec

variable {d : Nat} {K : Type} [Num K] {c : Cfg d K} {X Y : Type} {Er : Err → Prop} {F : Agent d K X → Prop} {J : Y → Prop}

/-- `self.pop = self.get_sorted_and_trimmed_population(pop_new + self.pop, n, minmax)` -/
def mergeFront (n : Nat) (new : List (Agent d K X)) : M c X Y Unit :=
  reshape (fun pop => getSortedTrimmed c.E.argsort (new ++ pop) n c.P.mm)

theorem HJ.mergeFront (hE : c.E.Lawful) (hpos : 0 < c.popSize) {G : List (Agent d K X)} :
    HJ F J 0 0 G (Mealpy.mergeFront c.popSize G : M c X Y Unit) (fun _ => []) (fun _ => True) := by
  refine HJ.reshape fun pop hl => ⟨?_, fun a ha => ?_, fun a ha => ?_⟩
  · rw [trimmed_length hE, List.length_append]
    omega
  · exact (List.mem_append.1 (trimmed_mem hE ha)).symm
  · exact trimmed_cover hE hpos (List.mem_append.2 ha.symm)

theorem WT.mergeFront (hE : c.E.Lawful) {G : List (Agent d K X)} (hG : ∀ a ∈ G, CF c a) :
    WT Er (Inv.std c X J) 0 0 (Mealpy.mergeFront c.popSize G : M c X Y Unit) (fun _ => True) := by
  refine WT.reshape fun pop hl hp => ⟨?_, fun a ha => ?_⟩
  · change pop.length = c.popSize at hl
    change _ = c.popSize
    rw [trimmed_length hE, List.length_append]
    omega
  · exact (List.mem_append.1 (trimmed_mem hE ha)).elim (fun h => Inv.std_ag (hG a h)) (hp a)

theorem Framed.mergeFront {q : Bool} {n : Nat} {l : List (Agent d K X)} : Framed q (Mealpy.mergeFront n l : M c X Y Unit) := Framed.reshape

macro_rules
  | `(tactic| fprim) => `(tactic| (at_last mergeFront; exact Framed.mergeFront))

/-- `IT.evalCompareThen`, when what is recorded depends on the new agents -/
theorem IT.evalCompareNew (hE : c.E.Lawful) {mk : St c X Y → Nat → D c (Vec d K × X)} {upd els : List (Agent d K X) → Nat → Agent d K X → Y → Y}
    {k : M c X Y Unit}
    (hmk : ∀ (s : St c X Y) (i : Nat), Mid F J s → s.pop.length = c.popSize → i < c.popSize → DT noErr (mk s i) (MkOk F c))
    (hupd : ∀ new i a y, i < c.popSize → J y → J (upd new i a y)) (hels : ∀ new i a y, i < c.popSize → J y → J (els new i a y))
    (hk : IT F J 0 0 k (fun _ => True)) :
    IT F J c.popSize c.popSize (do
      let new ← buildEval c.popSize mk
      compareLoop c.popSize new (upd new) (els new)
      k : M c X Y Unit) (fun _ => True) := by
  intro s hs
  refine Wp.bind (Wp.mono (buildEval_batch hE hs (fun s i hs => hmk s i hs hs.len)) ?_)
  rintro new s1 ⟨h1, h2⟩
  have := ImpH.ofBatch hs.toGoodPop h2
  rw [h1] at this
  refine Wp.bind (Wp.mono (this.compareLoop h1.symm rfl (hupd new) (hels new)) fun _ s2 h => ?_)
  exact Wp.mono (hk s2 (h.toStep.mid hs)) fun _ _ h' => ⟨(h.trans h'.1).weaken (by omega) (by omega), trivial⟩

end Mealpy
