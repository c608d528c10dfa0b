import Verif.Heap
import Verif.Witness

/-!
# C35: what later changes of population agents do to the records
-/

set_option linter.unusedSectionVars false
set_option linter.unusedVariables false

namespace Mealpy

variable {d : Nat} {K X : Type} [LinearOrder K]

/-- a whole history of steps; assignments and population slots concern only existing objects that are
not entries of `list_global_best` -/
inductive Heap.Runs (argsort : List K → List Nat) (mm : MinMax) : Refs d K X → Refs d K X → Prop
  | nil (s) : Runs argsort mm s s
  | step {s s' s''} (op : HeapOp d K X) :
      (∀ r o, op = .assign r o → r ∉ s.globalBest) → (∀ rs, op = .setPop rs → ∀ r ∈ rs, r ∉ s.globalBest ∧ r < s.heap.objs.length) →
      op.run argsort mm s = some s' → Runs argsort mm s' s'' → Runs argsort mm s s''

/-- the references in the record point to objects, and no population slot is one of them -/
structure Refs.WF (s : Refs d K X) : Prop where
  ok : ∀ r ∈ s.globalBest, ∃ a, s.heap.view r = some a
  disj : ∀ r ∈ s.pop, r ∉ s.globalBest
  pop : ∀ r ∈ s.pop, r < s.heap.objs.length

theorem Heap.view_alloc {h : Heap d K X} {o : Obj K X} {r : Nat} {a : Agent d K X} (hv : h.view r = some a) :
    (h.alloc o).2.view r = some a := by
  unfold Heap.view at *
  cases ho : h.objs[r]? with
  | none => rw [ho] at hv; cases hv
  | some ob =>
    rw [ho] at hv
    have : (h.alloc o).2.objs[r]? = some ob := by
      unfold Heap.alloc
      have := (List.getElem?_eq_some_iff.1 ho).1
      show (h.objs ++ [o])[r]? = _
      rw [List.getElem?_append_left this]; exact ho
    rw [this]
    exact hv

theorem Heap.copy_some {h : Heap d K X} {r : Nat} {p : Nat × Heap d K X} (hc : h.copy r = some p) :
    ∃ o, h.objs[r]? = some o ∧ p = h.alloc o := by
  unfold Heap.copy at hc
  cases ho : h.objs[r]? with
  | none => rw [ho] at hc; cases hc
  | some o => rw [ho] at hc; exact ⟨o, rfl, (Option.some.inj hc).symm⟩

/-- the copy shows what the original shows -/
theorem Heap.view_copy {h : Heap d K X} {r : Nat} {p : Nat × Heap d K X} (hc : h.copy r = some p) :
    p.2.view p.1 = h.view r := by
  obtain ⟨o, ho, rfl⟩ := Heap.copy_some hc
  unfold Heap.view Heap.alloc
  simp [ho]

theorem Refs.record_some {argsort : List K → List Nat} {mm : MinMax} {s s' : Refs d K X}
    (h : s.record argsort mm = some s') : ∃ views i cb gb x y p,
      s.pop.mapM s.heap.view = some views ∧ (getSorted argsort views mm).2.head? = some i ∧ s.pop[i]? = some cb ∧
      s.globalBest.getLast? = some gb ∧ s.heap.view cb = some x ∧ s.heap.view gb = some y ∧
      s.heap.copy (if takesFirst x y mm then cb else gb) = some p ∧
      s' = { s with heap := p.2, gbest := p.1, globalBest := s.globalBest ++ [p.1],
                    currentBest := s.currentBest ++ [cb] } := by
  unfold Refs.record at h
  simp only [Option.bind_eq_bind, Option.bind_eq_some_iff, Option.pure_def, Option.some.injEq] at h
  obtain ⟨views, h1, i, h2, cb, h3, gb, h4, x, h5, y, h6, p, h7, h8⟩ := h
  exact ⟨views, i, cb, gb, x, y, p, h1, h2, h3, h4, h5, h6, h7, h8.symm⟩

theorem Refs.WF.step_pop {argsort : List K → List Nat} {mm : MinMax} {s s' : Refs d K X} (hs : s.WF)
    {op : HeapOp d K X} (hp : ∀ rs, op = .setPop rs → ∀ r ∈ rs, r ∉ s.globalBest ∧ r < s.heap.objs.length)
    (hr : op.run argsort mm s = some s') : ∀ r ∈ s'.pop, r < s'.heap.objs.length := by
  have hlt : ∀ r ∈ s.pop, r < s.heap.objs.length + 1 := fun r h => Nat.lt_succ_of_lt (hs.pop r h)
  cases op with
  | array x => injection hr with hr; subst hr; exact hs.pop
  | agent o => injection hr with hr; subst hr; simpa [Heap.alloc] using hlt
  | copy r =>
    unfold HeapOp.run at hr
    dsimp only at hr
    cases hc : s.heap.copy r with
    | none => rw [hc] at hr; cases hr
    | some p =>
      rw [hc] at hr
      injection hr with hr
      subst hr
      obtain ⟨o, -, rfl⟩ := Heap.copy_some hc
      simpa [Heap.alloc] using hlt
  | assign r o => injection hr with hr; subst hr; simpa [Heap.assign] using hs.pop
  | setPop rs => injection hr with hr; subst hr; exact fun r h => (hp rs rfl r h).2
  | record =>
    obtain ⟨views, i, cb, gb, x, y, p, h1, h2, h3, h4, h5, h6, h7, rfl⟩ := Refs.record_some hr
    obtain ⟨o, ho, rfl⟩ := Heap.copy_some h7
    simpa [Heap.alloc] using hlt

theorem Refs.WF.step {argsort : List K → List Nat} {mm : MinMax} {s s' : Refs d K X} (hs : s.WF)
    {op : HeapOp d K X} (ha : ∀ r o, op = .assign r o → r ∉ s.globalBest)
    (hp : ∀ rs, op = .setPop rs → ∀ r ∈ rs, r ∉ s.globalBest ∧ r < s.heap.objs.length)
    (hr : op.run argsort mm s = some s') :
    s'.WF ∧ s.globalBest <+: s'.globalBest ∧ ∀ r ∈ s.globalBest, s'.heap.view r = s.heap.view r := by
  have hpop := hs.step_pop hp hr
  have keep : (∀ r a, s.heap.view r = some a → s'.heap.view r = some a) → s'.globalBest = s.globalBest →
      (∀ r ∈ s'.pop, r ∉ s.globalBest) →
      s'.WF ∧ s.globalBest <+: s'.globalBest ∧ ∀ r ∈ s.globalBest, s'.heap.view r = s.heap.view r := by
    intro hv he hd
    refine ⟨⟨?_, by rw [he]; exact hd, hpop⟩, by rw [he], ?_⟩
    · rw [he]
      intro r hr
      obtain ⟨a, ha⟩ := hs.ok r hr
      exact ⟨a, hv r a ha⟩
    · intro r hr
      obtain ⟨a, ha⟩ := hs.ok r hr
      rw [ha, hv r a ha]
  cases op with
  | array x =>
    injection hr with hr
    subst hr
    refine keep ?_ rfl hs.disj
    intro r a hv
    unfold Heap.view at *
    dsimp only
    cases ho : s.heap.objs[r]? with
    | none => rw [ho] at hv; cases hv
    | some o =>
      rw [ho] at hv
      dsimp only at hv ⊢
      cases hx : s.heap.arrs[o.sol]? with
      | none => rw [hx] at hv; cases hv
      | some y =>
        rw [hx] at hv
        rw [List.getElem?_append_left (List.getElem?_eq_some_iff.1 hx).1, hx]
        exact hv
  | agent o =>
    injection hr with hr
    subst hr
    exact keep (fun r a hv => Heap.view_alloc hv) rfl hs.disj
  | copy r =>
    unfold HeapOp.run at hr
    dsimp only at hr
    cases hc : s.heap.copy r with
    | none => rw [hc] at hr; cases hr
    | some p =>
      rw [hc] at hr
      injection hr with hr
      subst hr
      obtain ⟨o, -, rfl⟩ := Heap.copy_some hc
      exact keep (fun r a hv => Heap.view_alloc hv) rfl hs.disj
  | assign r o =>
    injection hr with hr
    subst hr
    have hne := ha r o rfl
    have hv : ∀ r' ∈ s.globalBest, (s.heap.assign r o).view r' = s.heap.view r' := by
      intro r' hr'
      unfold Heap.view Heap.assign
      dsimp only
      rw [List.getElem?_set_ne (by rintro rfl; exact hne hr')]
    refine ⟨⟨?_, hs.disj, hpop⟩, List.prefix_rfl, hv⟩
    intro r' hr'
    obtain ⟨a, ha⟩ := hs.ok r' hr'
    exact ⟨a, by rw [hv r' hr']; exact ha⟩
  | setPop rs =>
    injection hr with hr
    subst hr
    exact keep (fun _ _ h => h) rfl (fun r hr' => (hp rs rfl r hr').1)
  | record =>
    obtain ⟨views, i, cb, gb, x, y, p, h1, h2, h3, h4, h5, h6, h7, rfl⟩ := Refs.record_some hr
    have hc := Heap.view_copy h7
    obtain ⟨o, ho, rfl⟩ := Heap.copy_some h7
    have hv : ∀ r a, s.heap.view r = some a → (s.heap.alloc o).2.view r = some a := fun r a => Heap.view_alloc
    refine ⟨⟨?_, ?_, hpop⟩, List.prefix_append _ _, ?_⟩
    · intro r hr'
      rcases List.mem_append.1 hr' with hr' | hr'
      · obtain ⟨a, ha⟩ := hs.ok r hr'
        exact ⟨a, hv r a ha⟩
      · rw [List.mem_singleton.1 hr']
        dsimp only
        rw [hc]
        split
        · exact ⟨x, h5⟩
        · exact ⟨y, h6⟩
    · intro r hr' hm
      rcases List.mem_append.1 hm with hm | hm
      · exact hs.disj r hr' hm
      · have := hs.pop r hr'
        rw [List.mem_singleton.1 hm] at this
        exact absurd this (by simp [Heap.alloc])
    · intro r hr'
      obtain ⟨a, ha⟩ := hs.ok r hr'
      rw [ha]
      exact hv r a ha

/-- C35: entries of `list_global_best` are copies: whatever new agents, copies, attribute assignments,
population changes and further recordings follow, earlier entries stay in place and show the same
solution, target and attributes.  (The assignments and the population concern objects other than
the entries themselves; that recording never puts an entry into the population is part of the
conclusion, by `C35_population_is_separate`.) -/
theorem C35_global_best_record_is_immune {argsort : List K → List Nat} {mm : MinMax} {s s' : Refs d K X}
    (hs : s.WF) (hr : Heap.Runs argsort mm s s') :
    s.globalBest <+: s'.globalBest ∧ ∀ r ∈ s.globalBest, s'.heap.view r = s.heap.view r := by
  suffices s'.WF ∧ s.globalBest <+: s'.globalBest ∧ ∀ r ∈ s.globalBest, s'.heap.view r = s.heap.view r from this.2
  induction hr with
  | nil s => exact ⟨hs, List.prefix_rfl, fun _ _ => rfl⟩
  | step op ha hp h1 h2 ih =>
    obtain ⟨k1, k2, k3⟩ := hs.step ha hp h1
    obtain ⟨j0, j1, j2⟩ := ih k1
    refine ⟨j0, k2.trans j1, ?_⟩
    intro r hr'
    rw [j2 r (k2.subset hr'), k3 r hr']

/-- C35: recording puts a new object into the record (so a population agent never becomes an entry),
and the returned agent `g_best` is that entry. -/
theorem C35_population_is_separate {argsort : List K → List Nat} {mm : MinMax} {s s' : Refs d K X} (hs : s.WF)
    (h : s.record argsort mm = some s') :
    (∀ r ∈ s'.pop, r ∉ s'.globalBest) ∧ s'.globalBest.getLast? = some s'.gbest := by
  refine ⟨(hs.step (op := .record) (by intro _ _ h; cases h) (by intro _ h; cases h) h).1.disj, ?_⟩
  obtain ⟨views, i, cb, gb, x, y, p, h1, h2, h3, h4, h5, h6, h7, rfl⟩ := Refs.record_some h
  simp

theorem mapM_view_length {h : Heap d K X} : ∀ {l : List Nat} {vs : List (Agent d K X)},
    l.mapM h.view = some vs → ∀ r ∈ l, ∃ a, h.view r = some a
  | [], vs, _, r, hr => by cases hr
  | q :: l, vs, hm, r, hr => by
    rw [List.mapM_cons] at hm
    simp only [Option.bind_eq_bind, Option.bind_eq_some_iff] at hm
    obtain ⟨a, h1, vs', h2, -⟩ := hm
    rcases List.mem_cons.1 hr with rfl | hr
    · exact ⟨a, h1⟩
    · exact mapM_view_length h2 r hr

/-- C35: the optimizer that `after_initialization` leaves meets the hypotheses. -/
theorem C35_start_is_well_formed {argsort : List K → List Nat} {mm : MinMax} {heap : Heap d K X} {pop : List Nat}
    {s : Refs d K X} (h : Refs.start argsort mm heap pop = some s) : s.WF := by
  unfold Refs.start at h
  simp only [Option.bind_eq_bind, Option.bind_eq_some_iff, Option.pure_def, Option.some.injEq] at h
  obtain ⟨views, h1, i, h2, best, h3, p, h4, p1, h5, p2, h6, rfl⟩ := h
  have hb : best ∈ pop := List.mem_of_getElem? h3
  obtain ⟨a, ha⟩ := mapM_view_length h1 best hb
  have v1 := Heap.view_copy h4
  have v2 := Heap.view_copy h5
  obtain ⟨o, ho, rfl⟩ := Heap.copy_some h4
  obtain ⟨o1, ho1, rfl⟩ := Heap.copy_some h5
  obtain ⟨o2, ho2, rfl⟩ := Heap.copy_some h6
  have hlt : ∀ r ∈ pop, r < heap.objs.length := by
    intro r hr
    obtain ⟨a, ha⟩ := mapM_view_length h1 r hr
    unfold Heap.view at ha
    cases hh : heap.objs[r]? with
    | none => rw [hh] at ha; cases ha
    | some o => exact (List.getElem?_eq_some_iff.1 hh).1
  refine ⟨?_, ?_, ?_⟩
  · intro r hr
    rw [List.mem_singleton.1 hr]
    refine ⟨a, Heap.view_alloc ?_⟩
    rw [v2, v1, ha]
  · intro r hr hm
    rw [List.mem_singleton.1 hm] at hr
    have := hlt _ hr
    simp [Heap.alloc] at this
  · intro r hr
    have := hlt r hr
    simp [Heap.alloc]
    omega

/-- C35: `list_current_best` holds the live population object: recording appends a reference that
is in the population, and a later assignment to that population agent rewrites the past entry. -/
theorem C35_current_best_record_is_live {argsort : List K → List Nat} {mm : MinMax} {s s' : Refs d K X}
    (h : s.record argsort mm = some s') : ∃ r ∈ s'.pop, s'.currentBest.getLast? = some r ∧
      ∀ (o : Obj K X) (x : Vec d K), s'.heap.arrs[o.sol]? = some x →
        (s'.heap.assign r o).view r = some ⟨x, o.tgt, o.ext⟩ := by
  obtain ⟨views, i, cb, gb, x, y, p, h1, h2, h3, h4, h5, h6, h7, rfl⟩ := Refs.record_some h
  refine ⟨cb, List.mem_of_getElem? h3, by simp, ?_⟩
  intro o x' hx
  obtain ⟨o', ho', rfl⟩ := Heap.copy_some h7
  have hlt : cb < s.heap.objs.length := by
    unfold Heap.view at h5
    cases hh : s.heap.objs[cb]? with
    | none => rw [hh] at h5; cases h5
    | some o => exact (List.getElem?_eq_some_iff.1 hh).1
  have : ((s.heap.alloc o').2.assign cb o).objs[cb]? = some o := by
    show ((s.heap.objs ++ [o']).set cb o)[cb]? = some o
    rw [List.getElem?_set_self (by simp; omega)]
  unfold Heap.view
  rw [this]
  dsimp only
  have hx' : ((s.heap.alloc o').2.assign cb o).arrs[o.sol]? = some x' := hx
  rw [hx']

/-- C35: a copy shares the solution array: a write into the array of the original changes the
solution of every copy, the recorded one included, while the recorded target stays. -/
theorem C35_array_write_reaches_copies {h : Heap d K X} {r : Nat} {p : Nat × Heap d K X} {o : Obj K X} {x : Vec d K}
    (hc : h.copy r = some p) (ho : h.objs[r]? = some o) (hx : h.arrs[o.sol]? = some x) (j : Fin d) (v : K) :
    (p.2.write o.sol j v).view p.1 = some ⟨fun i => if i = j then v else x i, o.tgt, o.ext⟩ ∧
    (p.2.write o.sol j v).view r = some ⟨fun i => if i = j then v else x i, o.tgt, o.ext⟩ := by
  obtain ⟨o', ho', rfl⟩ := Heap.copy_some hc
  rw [ho] at ho'
  obtain rfl := Option.some.inj ho'
  have hlt := (List.getElem?_eq_some_iff.1 ho).1
  have harr : ((h.alloc o).2.write o.sol j v).arrs[o.sol]? = some (fun i => if i = j then v else x i) := by
    show (h.arrs.modify o.sol _)[o.sol]? = _
    rw [List.getElem?_modify, hx]
    simp
  constructor
  · have : ((h.alloc o).2.write o.sol j v).objs[(h.alloc o).1]? = some o := by
      show (h.objs ++ [o])[h.objs.length]? = some o
      simp
    unfold Heap.view
    rw [this]
    dsimp only
    rw [harr]
  · have : ((h.alloc o).2.write o.sol j v).objs[r]? = some o := by
      show (h.objs ++ [o])[r]? = some o
      rw [List.getElem?_append_left hlt, ho]
    unfold Heap.view
    rw [this]
    dsimp only
    rw [harr]

/-! A population of two agents at 3 and 1; the second is the best. -/

def exHeap : Heap 1 ℚ Unit :=
  ⟨[⟨0, ⟨[9], 9⟩, ()⟩, ⟨1, ⟨[1], 1⟩, ()⟩], [fun _ => 3, fun _ => 1]⟩

/-- an argsort that computes on two elements -/
def argsort2 : List ℚ → List Nat
  | [a, b] => if a ≤ b then [0, 1] else [1, 0]
  | l => List.range l.length

/-- start, record, move the best population agent to 3, record again: the run exists, the first
global-best entry still shows 1, the first entry of `list_current_best` made by recording shows 3 -/
example : ∃ s s1 s2 s3, Refs.start argsort2 .min exHeap [0, 1] = some s ∧
    (HeapOp.record).run argsort2 .min s = some s1 ∧
    (HeapOp.assign 1 ⟨0, ⟨[9], 9⟩, ()⟩).run argsort2 .min s1 = some s2 ∧
    (HeapOp.record).run argsort2 .min s2 = some s3 ∧
    s3.globalBest.map (fun r => (s3.heap.view r).map Agent.fit) = [some 1, some 1, some 1] ∧
    s3.currentBest.map (fun r => (s3.heap.view r).map Agent.fit) = [some 1, some 9, some 9] :=
  ⟨_, _, _, _, rfl, rfl, rfl, rfl, by decide +kernel, by decide +kernel⟩

end Mealpy
