import Mathlib.Data.List.Sort
import Verif.SpecRank
import Verif.Climber
import Verif.Props.Algorithms

/-!
# C59: greedy algorithms never lose ground

`list_population` of the history holds a copy of the population after every epoch if `save_population` is set.  For the algorithms listed in
`Climber`, each recorded population is rank by rank no worse than the one before: the best agent, the second best, …, the worst.
-/

namespace Mealpy
open Spec

variable {d : Nat} {K : Type} [Num K] {c : Cfg d K} {X Y : Type}

theorem goodAgents_map {mm : MinMax} {t : K} {l : List (Agent d K X)} :
    goodAgents mm t l = (l.map Agent.fit).countP (fun f => decide (NoWorse mm f t)) := by
  unfold goodAgents
  rw [List.countP_map]
  rfl

theorem Climbed.ranks {mm : MinMax} {p p' : List (Agent d K X)} (h : Climbed mm p p') : NoRankWorse mm (p.map Agent.fit) (p'.map Agent.fit) := by
  intro r r' hr hs hr' hs'
  have hlen : r'.length = r.length := by
    rw [hr'.length_eq, hr.length_eq, List.length_map, List.length_map, h.1]
  refine ⟨hlen, fun k x x' hx hx' => ?_⟩
  by_contra hn
  have h1 := h.2 x
  rw [goodAgents_map, goodAgents_map, ← hr.countP_eq, ← hr'.countP_eq] at h1
  obtain ⟨hk, hxe⟩ := List.getElem?_eq_some_iff.1 hx
  obtain ⟨hk', hxe'⟩ := List.getElem?_eq_some_iff.1 hx'
  -- the first k + 1 values before are at least as good as x
  have h2 : k + 1 ≤ r.countP (fun f => decide (NoWorse mm f x)) := by
    rw [← List.take_append_drop (k + 1) r, List.countP_append]
    have : (r.take (k + 1)).countP (fun f => decide (NoWorse mm f x)) = (r.take (k + 1)).length := by
      rw [List.countP_eq_length]
      intro f hf
      obtain ⟨i, hi, rfl⟩ := List.mem_iff_getElem.1 hf
      rw [List.getElem_take]
      rw [List.length_take] at hi
      rcases Nat.lt_or_ge i k with hik | hik
      · have := List.pairwise_iff_getElem.1 hs i k (by omega) hk hik
        rw [hxe] at this
        simpa using this
      · obtain rfl : i = k := by omega
        simp only [hxe, decide_eq_true_eq]
        exact NoWorse.rfl
    rw [this, List.length_take]
    omega
  -- after that, those from the k-th on are not
  have h3 : r'.countP (fun f => decide (NoWorse mm f x)) ≤ k := by
    rw [← List.take_append_drop k r', List.countP_append]
    have : (r'.drop k).countP (fun f => decide (NoWorse mm f x)) = 0 := by
      rw [List.countP_eq_zero]
      intro f hf hfx
      obtain ⟨i, hi, rfl⟩ := List.mem_iff_getElem.1 hf
      rw [List.getElem_drop] at hfx
      rw [List.length_drop] at hi
      have hfx' := of_decide_eq_true hfx
      rcases Nat.eq_zero_or_pos i with rfl | hi0
      · simp only [Nat.add_zero, hxe'] at hfx'
        exact hn hfx'
      · have := List.pairwise_iff_getElem.1 hs' k (k + i) hk' (by omega) (by omega)
        rw [hxe'] at this
        exact hn (this.trans hfx')
    have h4 : (r'.take k).countP (fun f => decide (NoWorse mm f x)) ≤ (r'.take k).length := List.countP_le_length
    rw [List.length_take] at h4
    omega
  omega

/-- Each recorded population is rank by rank no worse than the one recorded an epoch before. -/
theorem C59_no_rank_gets_worse {A : Algo c X Y} {bud : Budget} (hA : Climber c A) (hS : Sized c A bud) (hE : c.E.Lawful) (hP : c.P.Lawful)
    {o : RunOpts K} (hst : FeasibleStart c o.starting) (ho : o.savePop = true) {b : Base c} (hb : b.log = []) {s : St c X Y} {h : FinalHist d K X}
    (hs : solve A o b = .ok (s, h)) {i : Nat} {p p' : List (Agent d K X)} (hp : h.population[i]? = some p) (hp' : h.population[i + 1]? = some p') :
    NoRankWorse c.P.mm (p.map Agent.fit) (p'.map Agent.fit) := by
  have hl : Listed c A bud := by
    rcases hS with hS | ⟨e, hS⟩
    · exact .inl (.inl (.inl hS))
    · exact .inr ⟨e, .inl hS⟩
  obtain ⟨q, hq⟩ := hl.disciplined hE hP
  refine (Algo.rising hE (fun ep q => hA.up hE ep q) hq ho hs i p p' hp hp' ?_).ranks
  exact (C55_population_size_partial (.inl hS) hE hP hst hb hs).2 p (List.mem_of_getElem? hp)

/-- In particular the best agent of a recorded population is no worse than the best of any earlier one, and neither is the worst agent. -/
theorem C59_best_and_worst {A : Algo c X Y} {bud : Budget} (hA : Climber c A) (hS : Sized c A bud) (hE : c.E.Lawful) (hP : c.P.Lawful)
    {o : RunOpts K} (hst : FeasibleStart c o.starting) (ho : o.savePop = true) {b : Base c} (hb : b.log = []) {s : St c X Y} {h : FinalHist d K X}
    (hs : solve A o b = .ok (s, h)) {i j : Nat} (hij : i ≤ j) {p p' : List (Agent d K X)} (hp : h.population[i]? = some p)
    (hp' : h.population[j]? = some p') :
    (∀ a ∈ p, ∃ a' ∈ p', NoWorse c.P.mm a'.fit a.fit) ∧ (∀ a' ∈ p', ∃ a ∈ p, NoWorse c.P.mm a'.fit a.fit) := by
  have hl : Listed c A bud := by
    rcases hS with hS | ⟨e, hS⟩
    · exact .inl (.inl (.inl hS))
    · exact .inr ⟨e, .inl hS⟩
  obtain ⟨q, hq⟩ := hl.disciplined hE hP
  have hr := Algo.rising hE (fun ep q => hA.up hE ep q) hq ho hs
  have hsz := (C55_population_size_partial (.inl hS) hE hP hst hb hs).2
  have hcl : ∀ (n : Nat) (p' : List (Agent d K X)), h.population[i + n]? = some p' → Climbed c.P.mm p p' := by
    intro n
    induction n with
    | zero => intro p' h'; rw [Nat.add_zero, hp] at h'; obtain rfl := Option.some.inj h'; exact .rfl
    | succ n ih =>
      intro p' h'
      have hlt := (List.getElem?_eq_some_iff.1 h').1
      have hm : h.population[i + n]? = some (h.population[i + n]'(by omega)) := List.getElem?_eq_getElem (by omega)
      exact (ih _ hm).trans (hr (i + n) _ p' hm h' (hsz _ (List.mem_of_getElem? hm)))
  have hc := hcl (j - i) p' (by rw [Nat.add_sub_cancel' hij]; exact hp')
  refine ⟨fun a ha => ?_, fun a' ha' => ?_⟩
  · have h1 : 0 < goodAgents c.P.mm a.fit p := List.countP_pos_iff.2 ⟨a, ha, by simpa using NoWorse.rfl⟩
    obtain ⟨a', ha', h2⟩ := List.countP_pos_iff.1 (lt_of_lt_of_le h1 (hc.2 a.fit))
    exact ⟨a', ha', of_decide_eq_true h2⟩
  · -- otherwise all of the old agents beat a threshold that a' misses
    by_contra hn
    push Not at hn
    have hlenp : p.length ≠ 0 := by rw [← hc.1]; exact (List.length_pos_of_mem ha').ne'
    obtain ⟨w, hw, hwb⟩ : ∃ w ∈ p, ∀ a ∈ p, NoWorse c.P.mm a.fit w.fit := by
      have hne : (getSorted c.E.argsort p c.P.mm).1 ≠ [] := by
        intro h0
        have := getSorted_length hE.argsortLaw p c.P.mm
        rw [h0] at this
        exact hlenp this.symm
      obtain ⟨w, hw⟩ := List.getLast?_isSome.2 hne |> Option.isSome_iff_exists.1
      exact ⟨w, last_worst hE.argsortLaw hw⟩
    have h1 : goodAgents c.P.mm w.fit p = p.length := List.countP_eq_length.2 fun a ha => by simpa using hwb a ha
    have h2 := hc.2 w.fit
    have h3 : goodAgents c.P.mm w.fit p' = p'.length := le_antisymm List.countP_le_length (by rw [hc.1]; omega)
    exact hn w hw (of_decide_eq_true (List.countP_eq_length.1 h3 a' ha'))

/-! ## runs -/

/-- one variable, to be maximised over [-5, 5]; every agent starts at 1; three epochs -/
def rankCfg : Cfg 1 ℚ := ⟨runEnv (1/4) 1, pointProb (fun x => x) 1 .max, .single, 5, 3⟩

theorem rankCfg_lawful : rankCfg.E.Lawful ∧ rankCfg.P.Lawful :=
  ⟨runEnv_lawful (by norm_num) (by norm_num), pointProb_lawful (f := fun x => x) (x0 := 1) (mm := .max) (by norm_num)⟩

/-- the recorded fitness values -/
def fitsOf (r : Except Err (St c X Y × FinalHist d K X)) : List (List K) :=
  match r with
  | .ok (_, h) => h.population.map (fun p => p.map Agent.fit)
  | .error _ => []

theorem fitsOf_spec {r : Except Err (St c X Y × FinalHist d K X)} {l : List (List K)} (h : fitsOf r = l) (hl : l ≠ []) :
    ∃ s f, r = .ok (s, f) ∧ f.population.map (fun p => p.map Agent.fit) = l := by
  unfold fitsOf at h
  split at h
  · exact ⟨_, _, rfl, h⟩
  · exact absurd h.symm hl

/-- three recorded populations of Grey Wolf, each better than the one before or equal -/
example : Climber rankCfg (OriginalGWO.algo (c := rankCfg)) ∧ Sized rankCfg (OriginalGWO.algo (c := rankCfg)) (.of rankCfg.popSize rankCfg.popSize rankCfg.popSize) ∧
    ∃ s h, solve (OriginalGWO.algo (c := rankCfg)) ⟨none, .none, true⟩ ⟨(), (), [], 1⟩ = .ok (s, h) ∧
      h.population.map (fun p => p.map Agent.fit) = [List.replicate 5 (4/3), List.replicate 5 (14/9), List.replicate 5 (14/9)] := by
  refine ⟨.originalGWO, .inl (.inl (.originalGWO ⟨by decide, by decide⟩)), fitsOf_spec ?_ (by simp)⟩
  decide +kernel

/-- `OriginalAEO` returns the best agent it evaluated (C54), but its population loses ground: the producer replaces the worst agent whatever
it is worth. Here the worst fitness falls from 5/12 to 25/144. -/
theorem C59_aeo_loses_ground : rankCfg.E.Lawful ∧ rankCfg.P.Lawful ∧ Accepted rankCfg 5 ∧
    ∃ s h p p', solve (OriginalAEO.algo (c := rankCfg)) ⟨none, .none, true⟩ ⟨(), (), [], 1⟩ = .ok (s, h) ∧ h.population[0]? = some p ∧
      h.population[1]? = some p' ∧ ¬ NoRankWorse .max (p.map Agent.fit) (p'.map Agent.fit) := by
  refine ⟨rankCfg_lawful.1, rankCfg_lawful.2, ⟨by decide, by decide⟩, ?_⟩
  obtain ⟨s, h, hs, hh⟩ := fitsOf_spec (r := solve (OriginalAEO.algo (c := rankCfg)) ⟨none, .none, true⟩ ⟨(), (), [], 1⟩)
    (l := [[1, 1, 1, 1, 5/12], [1, 1, 1, 1, 25/144], [1, 1, 1, 1, 25/144]]) (by decide +kernel) (by simp)
  have h0 := congrArg (fun l => l[0]?) hh
  have h1 := congrArg (fun l => l[1]?) hh
  simp only [List.getElem?_map, Option.map_eq_some_iff, List.getElem?_cons_zero, List.getElem?_cons_succ] at h0 h1
  obtain ⟨p, hp, hf⟩ := h0
  obtain ⟨p', hp', hf'⟩ := h1
  refine ⟨s, h, p, p', hs, hp, hp', fun hno => ?_⟩
  rw [hf, hf'] at hno
  have hbf : ∀ x : ℚ, x ≤ 1 → BestFirst .max [1, 1, 1, 1, x] := fun x hx => by
    simp [BestFirst, NoWorse, hx]
  have := (hno [1, 1, 1, 1, 5/12] [1, 1, 1, 1, 25/144] (List.Perm.refl _) (hbf _ (by norm_num)) (List.Perm.refl _) (hbf _ (by norm_num))).2 4
    (5/12) (25/144) rfl rfl
  have h2 : (5/12 : ℚ) ≤ 25/144 := this
  norm_num at h2

end Mealpy
