import Verif.Reuse
import Verif.TapeEnv
import Verif.Props.Forgets

/-!
# C60: a second `solve` on the same object

`Object.Repeats` (`Verif/Reuse.lean`): after any calls of `solve` on an object, a call with a seed and a termination gives what it gives on a new
object.  It holds when nothing that the object keeps reaches the next call.  `OriginalBeesA`, `ProbBeesA`, `OriginalOrcaOA`, `ABFO` and `SAP_DE` keep
attributes that do.
-/

namespace Mealpy

variable {d : Nat} {K : Type} [Num K] {c : Cfg d K} {X Y A : Type}

/-- C60: an object whose attributes never change what the next call does repeats itself. -/
theorem C60_repeats (O : Object c X Y A) (h : ∀ a s, O.algo (O.left a s) = O.algo a) : O.Repeats := O.repeats h

/-- C60: so does every class that sets its attributes in `initialize_variables`. -/
theorem C60_plain_repeats (B : Algo c X Y) : (Object.plain B).Repeats := C60_repeats _ fun _ _ => rfl

/-- The same call twice on a new object: both end, and the second returns another fitness. -/
def Object.Drifts (O : Object c X Y A) (r : Request c) : Prop :=
  r.opts.term.isSome = true ∧ ∃ q m q' m', O.call O.fresh r = .ok (q, m) ∧ O.call m r = .ok (q', m') ∧ q'.1.gbest.fit ≠ q.1.gbest.fit

/-- An object that drifts does not repeat itself. -/
theorem Object.Drifts.not_repeats {O : Object c X Y A} {r : Request c} (h : O.Drifts r) : ¬ O.Repeats := fun hr => by
  obtain ⟨ht, q, m, q', m', h1, h2, hne⟩ := h
  have := hr [r] m (by unfold Object.calls; rw [h1]; rfl) r ht
  rw [h1, h2] at this
  cases this
  exact hne rfl

/-- evaluates the two calls -/
def drifts (O : Object c X Y A) (r : Request c) : Bool :=
  r.opts.term.isSome && match O.call O.fresh r with
    | .ok (q, m) => match O.call m r with
      | .ok (q', _) => decide (q'.1.gbest.fit ≠ q.1.gbest.fit)
      | .error _ => false
    | .error _ => false

theorem drifts_spec {O : Object c X Y A} {r : Request c} (h : drifts O r = true) : O.Drifts r := by
  unfold drifts at h
  rw [Bool.and_eq_true] at h
  refine ⟨h.1, ?_⟩
  have h := h.2
  split at h
  · rename_i q m h1
    split at h
    · rename_i q' m' h2
      exact ⟨q, m, q', m', h1, h2, of_decide_eq_true h⟩
    · cases h
  · cases h

/-- one call with a seed: at most 100 epochs by the termination -/
abbrev theCall {d : Nat} {f : Vec d ℚ → ℚ} {mm : MinMax} {n e : Nat} (seed : Nat) : Request (tapeCfg 1 3 d f mm .single n e) :=
  ⟨⟨some ⟨some 100, none, none, none, 0, 0⟩, .none, false⟩, seed, seed + 17⟩

/-- C60 is false of `OriginalBeesA`: `dyn_radius` is set by `__init__` only, so a second call starts with the reduced radius
(`mealpy/swarm_based/BeesA.py:209,261`).  Default parameters, ten bees, one epoch. -/
theorem C60_originalBeesA_drifts :
    (OriginalBeesA.object (c := tapeCfg 1 3 1 (fun x => x 0) .min .single 10 1) ⟨1 / 10, 1 / 10, 99 / 100, 5, 2, 1, 2⟩).Drifts (theCall 0) :=
  drifts_spec (by decide +kernel)

/-- C60 is false of `ProbBeesA`, for the same reason (`mealpy/swarm_based/BeesA.py:327,377`). -/
theorem C60_probBeesA_drifts :
    (ProbBeesA.object (c := tapeCfg 1 3 1 (fun x => x 0 + 5) .min .single 5 1) ⟨1 / 10, 1 / 10, 99 / 100, 5⟩).Drifts (theCall 0) :=
  drifts_spec (by decide +kernel)

/-- C60 is false of `OriginalOrcaOA`: a run ends with the radius 0, and the next one starts with it (`mealpy/swarm_based/ORCA.py:62,113`).
Default parameters, ten orcas. -/
theorem C60_originalOrcaOA_drifts :
    (OriginalOrcaOA.object (c := tapeCfg 1 3 1 (fun x => x 0) .min .single 10 1) ⟨2, 1⟩).Drifts (theCall 5) :=
  drifts_spec (by decide +kernel)

/-- C60 is false of `ABFO`: each call multiplies the step sizes by the width of the box once more (`mealpy/swarm_based/BFO.py:251-253`). -/
theorem C60_aBFO_drifts :
    (ABFO.object (c := tapeCfg 1 3 1 (fun x => x 0 + 5) .min .single 5 1) ⟨1 / 10, 1 / 1000, 1 / 100, 2, 1, 40⟩).Drifts (theCall 0) :=
  drifts_spec (by decide +kernel)

/-- C60 is false of `SAP_DE`: the next call generates as many agents as the last one ended with (`mealpy/evolutionary_based/DE.py:573`). -/
theorem C60_sAP_DE_drifts : (SAP_DE.object (c := tapeCfg 1 3 1 (fun x => x 0) .min .single 5 1) true).Drifts (theCall 5) :=
  drifts_spec (by decide +kernel)

/-- the hypotheses of C60 are met by an object that has already been used, and none of the five repeats itself -/
example : (Object.plain (OriginalBeesA.algo (c := tapeCfg 1 3 1 (fun x => x 0) .min .single 10 1) ⟨1 / 10, 1 / 10, 99 / 100, 5, 2, 1, 2⟩)).Repeats ∧
    ¬ (OriginalBeesA.object (c := tapeCfg 1 3 1 (fun x => x 0) .min .single 10 1) ⟨1 / 10, 1 / 10, 99 / 100, 5, 2, 1, 2⟩).Repeats :=
  ⟨C60_plain_repeats _, C60_originalBeesA_drifts.not_repeats⟩

end Mealpy
