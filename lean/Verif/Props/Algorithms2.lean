import Verif.Props.Algorithms

/-! # C55, C57: runs that lose agents or raise

Concrete runs of algorithms that break one of the claims of `Verif.Props.Algorithms`, and runs that raise whatever the problem. -/

set_option linter.unusedSectionVars false
set_option linter.unusedVariables false

namespace Mealpy
open Spec

variable {d : Nat} {K : Type} [Num K] {c : Cfg d K} {X Y : Type}

/-- the run raised `e` -/
def raises (e : Err) (r : Except Err (St c X Y × FinalHist d K X)) : Bool :=
  match r with
  | .ok _ => false
  | .error x => decide (x = e)

theorem raises_spec {e : Err} {r : Except Err (St c X Y × FinalHist d K X)} (h : raises e r = true) : r = .error e := by
  unfold raises at h
  split at h
  · cases h
  · rw [of_decide_eq_true h]

/-- `OriginalOrcaOA` drops the best orca in the first epoch, and has one agent less from then on. -/
theorem C55_orca_shrinks : saCfg.E.Lawful ∧ saCfg.P.Lawful ∧ Accepted saCfg 5 ∧
    ∃ s h, solve (OriginalOrcaOA.algo (c := saCfg) ⟨1/10, 1⟩) ⟨none, .none, false⟩ ⟨(), (), [], 1⟩ = .ok (s, h) ∧ s.pop.length ≠ saCfg.popSize := by
  refine ⟨saCfg_lawful.1, saCfg_lawful.2, ⟨by decide, by decide⟩, ?_⟩
  apply resizes_spec
  decide +kernel

/-- the sphere in two variables, five agents, two epochs -/
def orcaCfg : Cfg 2 ℚ := ⟨runEnv (1/2) 1, sphereProb 2 .min, .single, 5, 2⟩

theorem orcaCfg_lawful : orcaCfg.E.Lawful ∧ orcaCfg.P.Lawful :=
  ⟨runEnv_lawful (by norm_num) (by norm_num), sphereProb_lawful 2 .min⟩

/-- If the worst share of the population is less than one orca, `OriginalOrcaOA` moves orcas that no longer exist: the second epoch raises. -/
theorem C57_orca_raises : orcaCfg.E.Lawful ∧ orcaCfg.P.Lawful ∧ Accepted orcaCfg 5 ∧
    solve (OriginalOrcaOA.algo (c := orcaCfg) ⟨1, 0⟩) ⟨none, .none, false⟩ ⟨(), (0 : Nat), [], 1⟩ = .error .index := by
  refine ⟨orcaCfg_lawful.1, orcaCfg_lawful.2, ⟨by decide, by decide⟩, raises_spec ?_⟩
  decide +kernel

/-- one variable; ten agents start at the same point; two epochs -/
def closeCfg : Cfg 1 ℚ := ⟨runEnv (1/2) 0, pointProb (fun _ => 0) 1 .min, .single, 10, 2⟩

/-- `OriginalSquirrelSA` raises as soon as the squirrels on the good trees are close together. -/
theorem C57_squirrel_raises : closeCfg.E.Lawful ∧ closeCfg.P.Lawful ∧ Accepted closeCfg 5 ∧
    solve (OriginalSquirrelSA.algo (c := closeCfg) ⟨4, 1/10, 19/10, 18, 3/2⟩) ⟨none, .none, false⟩ ⟨(), (), [], 1⟩ = .error .type := by
  refine ⟨runEnv_lawful (by norm_num) (by norm_num), pointProb_lawful (f := fun _ => 0) (x0 := 1) (mm := .min) (by norm_num),
    ⟨by decide, by decide⟩, raises_spec ?_⟩
  decide +kernel

/-- `OriginalPSS` with Monte Carlo sampling raises in every run: the number of variables is passed as the type of the numbers to draw. -/
theorem C57_pss_raises (hE : c.E.Lawful) (hP : c.P.Lawful) (hc : Accepted c 5) (p : OriginalPSS.Params K) (hm : p.mc = true)
    (o : RunOpts K) (hst : FeasibleStart c o.starting) (b : Base c) (hlog : b.log = []) : solve (OriginalPSS.algo p) o b = .error .type := by
  have hpop := hc.pop
  have hep := hc.epoch
  have hi : ∀ lo hi Q (y : Bool) q, BT (fun x => x = .type) lo hi (OriginalPSS.initialization p y q : B c _) Q := by
    intro lo hi Q y q
    unfold OriginalPSS.initialization
    refine BT.bind0 (R := fun _ => False) (BT.liftD ?_) fun _ h => h.elim
    unfold OriginalPSS.samples
    rw [if_pos hm]
    exact DT.throw rfl
  have hok : (OriginalPSS.algo p : Algo c Unit Bool).WOk (fun x => x = .type) (Inv.std c Unit JT) JT JT (c.popSize + 2) (c.popSize + 1) 0 0 0 0 := by
    unfold OriginalPSS.algo
    refine Algo.custom_wok (J := JT) (J0 := JT) (by omega) (fun x hx => DT.pure trivial) (DT.pure trivial) (by omega) (fun y hy => hi _ _ _ _ _)
      (fun y pop hy hl hp => hi _ _ _ _ _) (fun ep hep1 hep2 => ?_)
    unfold OriginalPSS.evolve
    refine WT.bind0 (R := fun _ => False) (WT.draw ?_) fun _ h => h.elim
    unfold OriginalPSS.samples
    rw [if_pos hm]
    exact DT.throw rfl
  have := hok.solve hE (by omega) (by omega) o hst b hlog
  revert this
  cases solve (OriginalPSS.algo p) o b with
  | ok q =>
    intro h
    have h1 := h.budget_lo
    have h2 := h.budget_hi
    omega
  | error x => exact fun h => by rw [h]

/-- the hypotheses are met by any configuration the constructor accepts -/
example (mode : Valid.Mode) : Accepted (exCfg mode) 5 ∧ (⟨9/10, true⟩ : OriginalPSS.Params ℚ).mc = true :=
  ⟨⟨by simp [exCfg], by simp [exCfg]⟩, rfl⟩

/-- two variables, all agents start at the same point -/
def nroProb : Prob 2 ℚ where
  S := Unit
  lb := fun _ => -5
  ub := fun _ => 5
  mm := .min
  target x := ⟨[x 0], x 0⟩
  correct x s := (fun j => clip (x j) (-5) 5, s)
  generate s := (fun _ => 1, s)

theorem nroProb_lawful : nroProb.Lawful where
  correct_in x s j := (sphereProb_lawful 2 .min).correct_in x (0 : Nat) j
  generate_in s j := by
    change (-5 : ℚ) ≤ 1 ∧ (1 : ℚ) ≤ 5
    norm_num

/-- five agents, one epoch -/
def nroCfg : Cfg 2 ℚ := ⟨runEnv (1/2) 0, nroProb, .single, 5, 1⟩

/-- In more than one variable `OriginalNRO` may assign a vector to one coordinate, and raise. -/
theorem C57_nro_raises : nroCfg.E.Lawful ∧ nroCfg.P.Lawful ∧ Accepted nroCfg 5 ∧
    solve (OriginalNRO.algo (c := nroCfg)) ⟨none, .none, false⟩ ⟨(), (), [], 1⟩ = .error .value := by
  refine ⟨runEnv_lawful (by norm_num) (by norm_num), nroProb_lawful, ⟨by decide, by decide⟩, raises_spec ?_⟩
  decide +kernel

end Mealpy
