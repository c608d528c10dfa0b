import Verif.Keepers3
import Verif.RealNum

/-!
# Keeping what was evaluated: `OriginalBRO`

A soldier fights the nearest one at another place, and only the loser moves; so the winner covers what the loser loses.  If all soldiers are at one
place, another one covers it: the targets belong to the positions.
-/

set_option linter.unusedSectionVars false
set_option linter.unusedVariables false

namespace Mealpy
open Spec

variable {d : Nat} {K : Type} [Num K] {c : Cfg d K} {X Y α β : Type}

/-- `pop_size` agents, whose targets belong to their positions -/
def Right (c : Cfg d K) (q : List (Agent d K X)) : Prop := q.length = c.popSize ∧ ∀ a ∈ q, a.tgt = c.P.target a.sol

theorem Right.set {q : List (Agent d K X)} (h : Right c q) {i : Nat} {a : Agent d K X} (ha : a.tgt = c.P.target a.sol) : Right c (q.set i a) :=
  ⟨by rw [List.length_set]; exact h.1, fun b hb => (List.mem_or_eq_of_mem_set hb).elim (h.2 b) fun e => e ▸ ha⟩

theorem Qb.agentsOf_right {mkExt : Vec d K → D c X} : ∀ {xs : List (Vec d K)},
    Qb (Mealpy.agentsOf mkExt xs : B c _) (fun l => l) (fun l => l.length = xs.length ∧ ∀ a ∈ l, a.tgt = c.P.target a.sol)
  | [] => by unfold Mealpy.agentsOf; rw [List.mapM_nil]; exact .pure ⟨rfl, by simp⟩
  | x :: xs => by
    have ih := Qb.agentsOf_right (mkExt := mkExt) (xs := xs)
    unfold Mealpy.agentsOf at ih ⊢
    rw [List.mapM_cons]
    refine .bind Qb.agentOf fun a ha => .bind ih fun l hl => .pure ⟨⟨⟨by simp [hl.1], fun b hb => ?_⟩,
      fun b hb => ⟨b, by rw [List.mem_singleton.1 hb]; exact List.mem_cons_self, NoWorse.rfl⟩⟩, fun b hb => ⟨b, List.mem_cons_of_mem _ hb, NoWorse.rfl⟩⟩
    rcases List.mem_cons.1 hb with rfl | hb
    · rw [ha.2]; exact ha.1
    · exact hl.2 b hb

theorem Qb.generatePopulation_right (hE : c.E.Lawful) (hP : c.P.Lawful) {mkExt : Vec d K → D c X} {n : Nat} :
    Qb (Mealpy.generatePopulation mkExt n : B c _) (fun l => l) (fun l => l.length = n ∧ ∀ a ∈ l, a.tgt = c.P.target a.sol) := fun b => by
  refine Wp.mono (generatePopulation_spec hE hP n (F := fun _ => True) (fun x _ => DT.any)) ?_
  rintro pop b' ⟨h1, h2, ⟨new, h3, h3'⟩, -⟩
  refine ⟨⟨new, h3, fun x hx => ?_⟩, h1, fun a ha => (h2 a ha).2.1⟩
  obtain ⟨a, ha, rfl⟩ := List.mem_map.1 (h3'.mem_iff.1 hx)
  exact ⟨a, ha, by rw [← (h2 a ha).2.1]; exact NoWorse.rfl⟩

theorem Qb.beforeInit_right (hE : c.E.Lawful) {mkExt : Vec d K → D c X} {st : Starting K} :
    Qb (Mealpy.beforeInit mkExt st : B c _) (fun p => p.getD []) (fun p => ∀ l, p = some l → Right c l) := by
  unfold Mealpy.beforeInit
  split
  · exact .pure (fun l h => by cases h)
  · exact .throw
  · exact .throw
  · rename_i l
    split
    · exact .throw
    · rename_i hl
      split
      · exact .throw
      · split
        · exact .throw
        · split
          · exact .throw
          · rename_i xs hxs
            have hn : xs.length = c.popSize := by rw [mapM_some_length hxs]; simpa using hl
            split
            · refine .bind0 (.liftDR pendingOf_len) fun pend hp => .bind (Qb.updateTargets hE) fun l hl =>
                .pure ⟨fun l' h => ?_, fun a ha => ⟨a, ha, NoWorse.rfl⟩⟩
              cases h
              refine ⟨by rw [hl, List.length_map, hp, hn], fun a ha => ?_⟩
              rw [hl] at ha
              obtain ⟨p, -, rfl⟩ := List.mem_map.1 ha
              rfl
            · exact .bind Qb.agentsOf_right fun l hl => .pure ⟨fun l' h => by cases h; exact ⟨hl.1.trans hn, hl.2⟩, fun a ha => ⟨a, ha, NoWorse.rfl⟩⟩

theorem Qb.initial_right (hE : c.E.Lawful) (hP : c.P.Lawful) {sf : Bool} {mk : Vec d K → D c X} {iv : D c Y} {ev : Nat → M c X Y Unit} (o : RunOpts K) :
    Qb (initialPop (Algo.full sf mk iv ev) o) (fun r => r.1) (fun r => Right c r.1) := by
  unfold initialPop
  refine .bind0 .liftD fun y _ => .bind (Qb.beforeInit_right hE) fun p hp => ?_
  show Qb (Mealpy.defaultInit mk y p) _ _
  unfold Mealpy.defaultInit
  split
  · exact .pure ⟨hp _ rfl, fun a ha => ⟨a, ha, NoWorse.rfl⟩⟩
  · exact .bind (Qb.generatePopulation_right hE hP) fun l hl => .pure ⟨⟨hl, by simp⟩, fun a ha => ⟨a, ha, NoWorse.rfl⟩⟩

/-- If every epoch keeps in the population what covers all it evaluates, as long as the targets belong to the positions, then the run returns the best
point evaluated.  (For algorithms without sorting.) -/
theorem keeps_right {mk : Vec d K → D c X} {iv : D c Y} {ev : Nat → M c X Y Unit} (hE : c.E.Lawful) (hP : c.P.Lawful)
    (hev : ∀ ep r q y, Right c q → Kp r q y [] (ev ep) (fun _ q' _ => q') (fun _ q' _ => Right c q')) {o : RunOpts K} {b : Base c} (hb : b.log = [])
    {s : St c X Y} {h : FinalHist d K X} (hs : solve (Algo.full false mk iv ev) o b = .ok (s, h)) :
    ∀ x ∈ s.base.log, NoWorse c.P.mm s.gbest.fit (c.P.target x).fitness := by
  obtain ⟨o', bb, pop0, y, b2, s0, s1, g1, g2, g3, g4, g5, g6⟩ := solve_ok hs
  obtain ⟨o'', bb', ho, hos, hosp, hlog, hnone, hsome⟩ := startTermination_ok o b
  rw [g1] at ho
  injection ho with ho
  obtain ⟨rfl, rfl⟩ := Prod.mk.inj ho
  have hl1 : bb.log = [] := by rw [hlog, hb]
  obtain ⟨⟨xs, hx1, hx2⟩, hJ⟩ := Wp.elim (Qb.initial_right hE hP o' bb) g2
  rw [hl1, List.nil_append] at hx1
  obtain ⟨best, worst, hbest, hworst, hs0e⟩ := afterInit_ok hE g3
  have hs0 : Topped s0 := by
    rw [hs0e]
    refine ⟨rfl, fun x hx => ?_⟩
    have hx : x ∈ b2.log := hx
    rw [hx1] at hx
    obtain ⟨a, ha, hn⟩ := hx2 x hx
    exact (hbest.2 a ha).trans hn
  injection g4 with g4
  obtain ⟨-, rfl⟩ := Prod.mk.inj g4
  have hloop := mainLoop_wp (Er := fun _ => True) (A := Algo.full false mk iv ev) (o := o') (fun k s => Topped s ∧ Right c s.pop) (by
      rintro k s ⟨hs, hj⟩ hk
      refine Wp.mono (epochStep_wp (R := fun s1 => Saved s.gbest s1.pop s1 ∧ Right c s1.pop) hE ?_ (.inl fun _ => trivial)) ?_
      · intro r v
        exact Wp.mono (hev (k + 1) s.gbest s.pop s.ext hj _ rfl rfl (Topped.saved (s := { s with base := { s.base with rng := r, vg := v } }) hs)) fun _ s' h => h
      · rintro f s' ⟨s1, ⟨hsv, hj'⟩, hend, -⟩
        obtain ⟨cb, cw, gb, gw, tm, hcb, hcw, hgb, hgw, hgbest, hhist⟩ := hend.hist
        obtain ⟨g, k1, k2⟩ := hsv.record
        rw [k1] at hgb
        obtain rfl := Option.some.inj hgb
        have hB := getBetterAgent_cases cb g c.P.mm
        have hgl : s'.hist.globalBest.getLast? = some s'.gbest := by rw [hhist, hgbest]; simp
        refine ⟨⟨hgl, ?_⟩, by rw [hend.pop]; exact hj'⟩
        intro x hx
        rw [hend.log] at hx
        rw [hgbest]
        obtain ⟨a, ha, hn⟩ := hsv.log x hx
        rcases List.mem_cons.1 ha with rfl | ha
        · exact hB.2.2.trans (k2.trans hn)
        · exact hB.2.1.trans ((hcb.2 a ha).trans hn)) c.epoch 0 s0 ⟨hs0, by rw [hs0e]; exact hJ⟩ (by omega)
  obtain ⟨e, -, -, h3, h4⟩ := Wp.elim hloop g5
  exact h4.1.2

namespace OriginalBRO
variable {r : Agent d K Int} {q : List (Agent d K Int)} {y : DevBRO.Vars d K}

/-- two positions are at distance 0 only if they are equal -/
def Separates (d : Nat) (K : Type) [Num K] : Prop := ∀ u v : Vec d K, normV (fun j => u j - v j) = 0 ↔ u = v

/-- some agent in another place covers the one at place `i` -/
def Spare (c : Cfg d K) (q : List (Agent d K Int)) (i : Nat) : Prop :=
  ∃ k v w, k ≠ i ∧ q[k]? = some v ∧ q[i]? = some w ∧ NoWorse c.P.mm v.fit w.fit

theorem Spare.dom {i : Nat} {a : Agent d K Int} (h : Spare c q i) : Dom c.P.mm r (q ++ [a]) (q.set i a) := by
  obtain ⟨k, v, w, hk, hv, hw, hn⟩ := h
  have hi := SARO.lt_of_some hw
  refine .append (fun e he => ?_) (.sub fun e he => ?_)
  · obtain ⟨m, hm, rfl⟩ := List.getElem_of_mem he
    by_cases hmi : m = i
    · subst hmi
      rw [List.getElem?_eq_getElem hm] at hw
      exact ⟨v, List.mem_cons_of_mem _ (List.mem_of_getElem? (i := k) (by rw [List.getElem?_set_ne (by omega), hv])), by rw [Option.some.inj hw]; exact hn⟩
    · exact ⟨_, List.mem_cons_of_mem _ (List.mem_of_getElem? (i := m) (by rw [List.getElem?_set_ne (by omega), List.getElem?_eq_getElem hm])), NoWorse.rfl⟩
  · rw [List.mem_singleton.1 he]
    exact List.mem_of_getElem? (List.getElem?_set_self hi)

theorem kp_hurt {t : K} {dam vic : Nat} (hq : Right c q) (h : Spare c q dam) :
    Kp r q y q (hurt t dam vic : M c Int (DevBRO.Vars d K) Unit) (fun _ q' _ => q') (fun _ q' _ => Right c q') := by
  have hA : ∀ {mk : Vec d K → D c Int} {x : Vec d K}, Qt (liftB (agentOf mk x) : M c Int (DevBRO.Vars d K) _) (fun a => [a]) (fun a => a.tgt = c.P.target a.sol) :=
    Qt.liftB (Qb.agentOf.weak fun a ha => by rw [ha.2]; exact ha.1)
  unfold hurt DevBRO.place
  refine .bindGet fun s _ _ _ => .bindPop fun z hz => .ite (fun _ => ?_) fun _ => ?_
  · simp only [bind_assoc]
    refine .bindDraw fun u => .bindDraw fun x => .bindQ hA fun a ha => .pre h.dom (.bindSetAt fun _ => .bindPop fun v hv => .setAt fun _ => ⟨.set hv NoWorse.rfl, ?_⟩)
    exact (hq.set ha).set (show v.tgt = _ from (hq.set ha).2 v (List.mem_of_getElem? hv))
  · exact .bindDraw fun x => .bindQ hA fun a ha => .pre h.dom (.setAt fun _ => ⟨.rfl, hq.set ha⟩)

theorem dt_nearest_right {pop : List (Agent d K Int)} {x : Vec d K} :
    DT (fun _ => True) (DevBRO.nearest pop x : D c Nat) (fun j => (∀ a ∈ pop, normV (fun j => a.sol j - x j) = 0) ∨
      ∀ a, pop[j]? = some a → normV (fun j => a.sol j - x j) ≠ 0) := by
  unfold DevBRO.nearest
  simp only
  split
  · rename_i h
    exact DT.mono DT.any fun j _ => .inl fun a ha => h _ (List.mem_map.2 ⟨a, ha, rfl⟩)
  · rename_i hz
    push Not at hz
    obtain ⟨y, hy, hy0⟩ := hz
    refine DT.pure (.inr fun a ha => ?_)
    have hmem : y ∈ (pop.map (fun a => normV (fun j => a.sol j - x j))).filter (fun y => decide (y ≠ 0)) := List.mem_filter.2 ⟨hy, by simpa using hy0⟩
    obtain ⟨m, hm, hm0⟩ : ∃ m, minL ((pop.map (fun a => normV (fun j => a.sol j - x j))).filter (fun y => decide (y ≠ 0))) = m ∧ m ≠ 0 := by
      refine ⟨_, rfl, ?_⟩
      unfold minL
      cases hl : listMin ((pop.map (fun a => normV (fun j => a.sol j - x j))).filter (fun y => decide (y ≠ 0))) with
      | none =>
        cases hf : (pop.map (fun a => normV (fun j => a.sol j - x j))).filter (fun y => decide (y ≠ 0)) with
        | nil => rw [hf] at hmem; cases hmem
        | cons a l => rw [hf] at hl; simp [listMin] at hl
      | some m => simpa using (List.mem_filter.1 (listMin_some hl).1).2
    rw [hm] at ha
    have hlt : (pop.map (fun a => normV (fun j => a.sol j - x j))).findIdx (fun y => decide (y = m)) < (pop.map (fun a => normV (fun j => a.sol j - x j))).length := by
      rw [List.length_map]
      exact SARO.lt_of_some ha
    have := List.findIdx_getElem (w := hlt)
    rw [List.getElem_map] at this
    have e : pop[(pop.map (fun a => normV (fun j => a.sol j - x j))).findIdx (fun y => decide (y = m))]'(by simpa using hlt) = a :=
      Option.some.inj ((List.getElem?_eq_getElem _).symm.trans ha)
    rw [e] at this
    rw [of_decide_eq_true this]
    exact hm0

theorem kp_battle (hn : Separates d K) (h2 : 2 ≤ c.popSize) {t : K} {idx : Nat} (hq : Right c q) :
    Kp r q y q (battle t idx : M c Int (DevBRO.Vars d K) Unit) (fun _ q' _ => q') (fun _ q' _ => Right c q') := by
  unfold battle
  refine .bindGet fun s hs _ _ => .bindPop fun x hx => .bind0 (.drawR dt_nearest_right) fun jdx hj => .bindPop fun z hz => ?_
  rw [hs] at hj
  have hi := SARO.lt_of_some hx
  have hj' := SARO.lt_of_some hz
  rcases hj with hall | hj
  · have spare : ∀ i, i < q.length → Spare c q i := fun i hi => by
      obtain ⟨k, hk, hki⟩ : ∃ k, k < q.length ∧ k ≠ i := by
        have := hq.1
        by_cases h : i = 0
        · exact ⟨1, by omega, by omega⟩
        · exact ⟨0, by omega, by omega⟩
      refine ⟨k, q[k], q[i], hki, List.getElem?_eq_getElem hk, List.getElem?_eq_getElem hi, ?_⟩
      have e1 := (hn _ _).1 (hall _ (List.getElem_mem hk))
      have e2 := (hn _ _).1 (hall _ (List.getElem_mem hi))
      unfold Agent.fit
      rw [hq.2 _ (List.getElem_mem hk), hq.2 _ (List.getElem_mem hi), e1, e2]
      exact NoWorse.rfl
    exact .ite (fun _ => kp_hurt hq (spare _ hj')) fun _ => kp_hurt hq (spare _ hi)
  · have hne : idx ≠ jdx := fun e => by
      subst e
      rw [hx] at hz
      obtain rfl := Option.some.inj hz
      exact hj _ hx ((hn _ _).2 rfl)
    refine .ite (fun h => kp_hurt hq ⟨idx, x, z, hne, hx, hz, compareTarget_true h⟩) fun h => kp_hurt hq ⟨jdx, z, x, hne.symm, hz, hx, ?_⟩
    exact compareTarget_false (by simpa using h)

/-- `OriginalBRO` returns the best point it evaluated -/
theorem best (hE : c.E.Lawful) (hP : c.P.Lawful) (hn : Separates d K) (h2 : 2 ≤ c.popSize) {p : K} {o : RunOpts K} {b : Base c} (hb : b.log = [])
    {s : St c Int (DevBRO.Vars d K)} {h : FinalHist d K Int} (hs : solve (OriginalBRO.algo p) o b = .ok (s, h)) :
    ∀ x ∈ s.base.log, NoWorse c.P.mm s.gbest.fit (c.P.target x).fitness := by
  refine keeps_right hE hP (fun ep r q y hq => ?_) hb hs
  unfold evolve
  refine .bind (.iter (fun _ _ q' _ => q') (fun _ _ q' _ => Right c q') .nil hq fun i _ q' y' _ hq' => kp_battle hn h2 hq') fun _ q' y' hq' => ?_
  exact .bindGet fun s _ _ _ => .modExt ⟨.rfl, hq'⟩

/-- so it is with real numbers -/
theorem separates_real : Separates d ℝ := by
  intro u v
  have h0 : @OfNat.ofNat ℝ 0 (instOfNatNum 0) = (0 : ℝ) := by rw [real_ofNat]; simp
  have hsum : ∀ l : List ℝ, ∀ a : ℝ, l.foldl (· + ·) a = a + l.sum := by
    intro l
    induction l with
    | nil => intro a; simp
    | cons x l ih => intro a; rw [List.foldl_cons, ih, List.sum_cons]; ring
  have hpos : ∀ l : List ℝ, (0 : ℝ) ≤ (l.map (fun x => x * x)).sum := fun l => List.sum_nonneg fun x hx => by
    obtain ⟨y, -, rfl⟩ := List.mem_map.1 hx
    exact mul_self_nonneg y
  have hz : ∀ l : List ℝ, (l.map (fun x => x * x)).sum = 0 ↔ ∀ x ∈ l, x = 0 := by
    intro l
    induction l with
    | nil => simp
    | cons x l ih =>
      rw [List.map_cons, List.sum_cons, add_eq_zero_iff_of_nonneg (mul_self_nonneg x) (hpos l), ih]
      simp
  have key : normV (fun j => u j - v j) = Real.sqrt (((List.ofFn (fun j => u j - v j)).map (fun x => x * x)).sum) := by
    unfold normV normL sumL
    show Real.sqrt _ = _
    rw [h0, hsum, zero_add]
  rw [key, h0, Real.sqrt_eq_zero (hpos _), hz]
  constructor
  · intro h
    funext j
    exact sub_eq_zero.1 (h _ ((List.mem_ofFn).2 ⟨j, rfl⟩))
  · rintro rfl x hx
    obtain ⟨j, rfl⟩ := (List.mem_ofFn).1 hx
    exact sub_self _

end OriginalBRO

end Mealpy
