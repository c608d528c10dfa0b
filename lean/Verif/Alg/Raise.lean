import Verif.Alg.DE

/-! # Runs that always raise -/

set_option linter.unusedSectionVars false
set_option linter.unusedVariables false

namespace Mealpy
open Spec

variable {d : Nat} {K : Type} [Num K] {c : Cfg d K} {X Y : Type} {e : Err}

/-- if `evolve` always raises `e`, so does every run -/
theorem solve_raises (hE : c.E.Lawful) (hP : c.P.Lawful) {A : Algo c Unit Y} (hpos : 0 < c.popSize) (hep : 0 < c.epoch)
    (hinit : A.initialization = defaultInit A.mkExt) (hb : A.beforeMain = Pure.pure ())
    (hmk : ∀ x, DT (fun x => x = e) (A.mkExt x) (fun _ => True)) (hv : DT (fun x => x = e) A.initVars (fun _ => True))
    (hev : ∀ ep (s : St c Unit Y), s.pop.length = c.popSize → Wp (fun x => x = e) (A.evolve ep) s (fun _ _ => False))
    (o : RunOpts K) (hst : FeasibleStart c o.starting) (b : Base c) (hlog : b.log = []) : solve A o b = .error e := by
  have hok : A.WOk (fun x => x = e) (Inv.std c Unit JT) JT JT c.popSize c.popSize 0 0 1 0 := by
    refine Algo.std_wok hE hP hpos rfl (fun n hn => by change n = _ at hn; omega) hinit hb
      (fun x hx => ⟨hx, DT.mono (hmk x) fun _ _ => hx⟩) hv fun ep _ _ s hs => ?_
    exact Wp.mono (hev ep s hs.len_std) fun _ _ h => h.elim
  have := hok.solve hE hpos hep o hst b hlog
  revert this
  cases solve A o b with
  | ok q =>
    intro h
    have h1 := h.budget_lo
    have h2 := h.budget_hi
    have h3 := h.epochs
    omega
  | error x => exact fun h => by rw [h]

/-- building positions raises if the first one does -/
theorem buildPending_raises {n : Nat} (hn : 0 < n) {mk : Nat → D c (Vec d K × X)}
    (h : ∀ g, mk 0 g = .error e) : DT (fun x => x = e) (buildPending n mk) (fun _ => False) := by
  intro g
  refine Wp.mono (Wp.iter (fun i _ _ => i = 0) n rfl ?_) fun _ _ h => by omega
  rintro i a s hi rfl
  exact Wp.bind (Wp.of_err (h s) rfl)

/-- so does the usual loop -/
theorem greedyLoop_raises {n : Nat} (hn : 0 < n) {mk : St c X Y → Nat → D c (Vec d K × X)} (s : St c X Y)
    (h : ∀ g, mk s 0 g = .error e) : Wp (fun x => x = e) (greedyLoop n mk) s (fun _ _ => False) := by
  unfold greedyLoop
  by_cases hm : c.swarmLike = true
  · rw [if_pos hm]
    refine Wp.bind (Wp.get ?_)
    exact Wp.bind (Wp.draw (buildPending_raises hn h) fun _ _ _ h => h.elim)
  · rw [if_neg hm]
    refine Wp.mono (Wp.iter (fun i _ s' => i = 0 ∧ s' = s) n ⟨rfl, rfl⟩ ?_) fun _ _ h => by omega
    rintro i a s' hi ⟨rfl, rfl⟩
    refine Wp.bind (Wp.get ?_)
    exact Wp.bind (Wp.draw (R := fun _ => False) (fun g => Wp.of_err (h g) rfl) fun _ _ _ h => h.elim)

theorem OriginalDE.raises (hE : c.E.Lawful) (hP : c.P.Lawful) (hc : Accepted c 5) (p : OriginalDE.Params K) (h5 : c.popSize = 5)
    (h3 : p.strategy = 3) (o : RunOpts K) (hst : FeasibleStart c o.starting) (b : Base c) (hlog : b.log = []) :
    solve (OriginalDE.algo p) o b = .error .value := by
  have hep := hc.epoch
  refine solve_raises hE hP (by omega) (by omega) rfl rfl (fun _ => DT.pure trivial) (DT.pure trivial) (fun ep s hl => ?_) o hst b hlog
  exact greedyLoop_raises (by omega) s fun g => OriginalDE.mk_raises p h3 s (by omega) (by omega) g

theorem JADE.raises (hE : c.E.Lawful) (hP : c.P.Lawful) (hc : Accepted c 5) (p : JADE.Params K) (ht : JADE.top c p ≤ 0)
    (o : RunOpts K) (hst : FeasibleStart c o.starting) (b : Base c) (hlog : b.log = []) :
    solve (JADE.algo p) o b = .error .value := by
  have hep := hc.epoch
  have hpop := hc.pop
  refine solve_raises hE hP (by omega) (by omega) rfl rfl (fun _ => DT.pure trivial) (DT.pure trivial) (fun ep s hl => ?_) o hst b hlog
  show Wp _ (JADE.evolve p ep) s _
  unfold JADE.evolve modExt
  refine Wp.bind (Wp.modify ?_)
  refine Wp.bind (Wp.get ?_)
  refine Wp.bind (Wp.draw (R := fun _ => True) ?_ fun sorted r v _ => ?_)
  · exact DT.mono (DT.sortedPop hE) fun _ _ => trivial
  · refine Wp.bind (Wp.draw (R := fun _ => False) ?_ fun _ _ _ h => h.elim)
    intro g
    refine Wp.mono (Wp.iter (fun i _ _ => i = 0) c.popSize rfl ?_) fun _ _ h => by omega
    rintro i a s hi rfl
    exact Wp.bind (Wp.of_err (JADE.trial_raises p ht _ _ _ _) rfl)

end Mealpy
