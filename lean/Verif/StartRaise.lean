import Verif.StopLemmas
import Verif.Props.Solve2
import Verif.Alg.ESOReal
import Verif.Alg.Simple20

/-! # Runs that raise in the first epoch because of where they start -/

set_option linter.unusedSectionVars false
set_option linter.unusedVariables false

namespace Mealpy
open Spec

section
variable {d : Nat} {K : Type} [Num K] {c : Cfg d K} {X Y : Type}

/-- if `evolve` raises on every state whose population lies at the starting solutions, so does `solve` -/
theorem solve_rows_raises (hE : c.E.Lawful) {A : Algo c X Y} (hsf : A.sortFlag = false) (hi : A.initialization = defaultInit A.mkExt)
    (hb : A.beforeMain = pure ()) {y : Y} (hv : A.initVars = pure y) (hmk : ∀ x, DT noErr (A.mkExt x) (fun _ => True)) {rows : List (List K)}
    (hlen : rows.length = c.popSize) (hpos : 0 < c.popSize) (hep : 0 < c.epoch) (hdim : ∀ r ∈ rows, r.length = d) {x : Err}
    (hx : ∀ s : St c X Y, s.pop.map (fun a => List.ofFn a.sol) = rows → A.evolve 1 s = .error x) (t : Option (Term K)) (save : Bool) (b : Base c) :
    solve A ⟨t, .rows rows, save⟩ b = .error x := by
  obtain ⟨o', b1, e1, hst, -⟩ := startTermination_ok (⟨t, .rows rows, save⟩ : RunOpts K) b
  obtain ⟨pop, b2, e2, hp, -⟩ := C38_rows_used_verbatim hE hmk rows hlen hpos hdim b1
  have e3 : initialPop A o' b1 = .ok ((pop, y), b2) := by
    unfold initialPop
    rw [hv, hi, hst]
    show (beforeInit A.mkExt (.rows rows) b1 >>= fun p => _) = _
    rw [e2]; rfl
  have hne : pop ≠ [] := by
    rintro rfl
    rw [List.map_nil] at hp
    rw [← hp] at hlen
    simp at hlen; omega
  obtain ⟨s0, e4⟩ := afterInit_total (sf := A.sortFlag) (y := y) (b := b2) hE hne
  have e5 : s0.pop = pop := by
    obtain ⟨best, worst, -, -, rfl⟩ := afterInit_ok hE e4
    simp [hsf]
  have e6 : epochStep A o' 1 s0 = .error x := by
    have hw := epochStep_wp (Er := fun e => e = x) (o := o') (epoch := 1) (s := s0) (R := fun _ => False) (A := A) hE (fun r v => by
      unfold Wp
      rw [hx _ (by show s0.pop.map _ = _; rw [e5]; exact hp)]) (.inr fun _ h => h.elim)
    unfold Wp at hw
    cases h : epochStep A o' 1 s0 with
    | error e => rw [h] at hw; rw [hw]
    | ok p => rw [h] at hw; obtain ⟨_, h, -⟩ := hw; exact h.elim
  have e7 : solveInit A ⟨t, .rows rows, save⟩ b = .ok (o', s0) := solveInit_of e1 e3 e4 (by rw [hb]; rfl)
  unfold solve
  rw [e7]
  dsimp only [bind, Except.bind]
  obtain ⟨n, hn⟩ : ∃ n, c.epoch = n + 1 := ⟨c.epoch - 1, by omega⟩
  rw [hn, mainLoop_err e6]

end

namespace OriginalESO

variable {d : Nat} {c : Cfg d ℝ}

/-- half of the population in the lowest corner, half in the highest -/
theorem resistance_corners {pop : List (Agent d ℝ Unit)} {m : Nat} {a b : ℝ} (hd : 0 < d) (hm : 0 < m) (hab : a < b)
    (h : pop.map (fun x => List.ofFn x.sol) = List.replicate m (List.replicate d a) ++ List.replicate m (List.replicate d b)) :
    ∃ r, resistance pop = some r ∧ 0 ≤ r ∧ r * r = d / 4 := by
  have hcol : ∀ j : Fin d, pop.map (fun x => x.sol j) = List.replicate m a ++ List.replicate m b := by
    intro j
    have h1 := congrArg (List.map (fun l : List ℝ => l.getD j 0)) h
    rw [List.map_map, List.map_append, List.map_replicate, List.map_replicate] at h1
    have h2 : ∀ z : ℝ, (List.replicate d z).getD j 0 = z := fun z => by simp [List.getD]
    rw [h2, h2] at h1
    rw [← h1]
    refine List.map_congr_left fun x _ => ?_
    simp [List.getD]
  have hlen : pop.length = 2 * m := by
    have := congrArg List.length h
    simp at this; omega
  have hm' : (0 : ℝ) < m := by exact_mod_cast hm
  have hsum : (List.replicate m a ++ List.replicate m b).sum = m * (a + b) := by simp; ring
  have hS : meanL (pop.map (fun x => sumL (List.ofFn fun j : Fin d => (x.sol j - meanL (pop.map (fun x => x.sol j))) * (x.sol j - meanL (pop.map (fun x => x.sol j)))))) =
      d * ((b - a) * (b - a) / 4) := by
    rw [spread_eq]
    simp only [hcol, hsum, List.length_append, List.length_replicate, hlen]
    have hmu : (m * (a + b) : ℝ) / ((m + m : ℕ) : ℝ) = (a + b) / 2 := by push_cast; field_simp; ring
    rw [hmu]
    simp only [List.map_append, List.map_replicate, List.sum_append, List.sum_replicate, Finset.sum_const, Finset.card_univ, Fintype.card_fin, nsmul_eq_mul]
    push_cast; field_simp; ring
  have hspec : ∀ j : Fin d, maxL (pop.map (fun x => x.sol j)) = b ∧ minL (pop.map (fun x => x.sol j)) = a := by
    intro j
    rw [hcol]
    have hl : 0 < (List.replicate m a ++ List.replicate m b).length := by simp; omega
    have hM := maxL_spec hl
    have hn := minL_spec hl
    have hb' : b ∈ List.replicate m a ++ List.replicate m b := by simp; omega
    have ha' : a ∈ List.replicate m a ++ List.replicate m b := by simp; omega
    have hle : ∀ x ∈ List.replicate m a ++ List.replicate m b, a ≤ x ∧ x ≤ b := by
      intro x hx
      simp only [List.mem_append, List.mem_replicate] at hx
      rcases hx with ⟨-, rfl⟩ | ⟨-, rfl⟩
      · exact ⟨le_rfl, hab.le⟩
      · exact ⟨hab.le, le_rfl⟩
    exact ⟨le_antisymm (hle _ hM.1).2 (hM.2 _ hb'), le_antisymm (hn.2 _ ha') (hle _ hn.1).1⟩
  have hw : maxL (List.ofFn fun j : Fin d => maxL (pop.map (fun x => x.sol j)) - minL (pop.map (fun x => x.sol j))) = b - a := by
    have := (maxL_spec (l := List.ofFn fun j : Fin d => maxL (pop.map (fun x => x.sol j)) - minL (pop.map (fun x => x.sol j))) (by simpa using hd)).1
    rw [List.mem_ofFn] at this
    obtain ⟨j, hj⟩ := this
    rw [← hj, (hspec j).1, (hspec j).2]
  unfold resistance
  dsimp only
  rw [hS, hw, if_neg (by rw [real_ofNat]; simp; exact hab)]
  have h0 : (0 : ℝ) < b - a := sub_pos.2 hab
  refine ⟨_, rfl, div_nonneg (Real.sqrt_nonneg _) h0.le, ?_⟩
  show Real.sqrt _ / _ * (Real.sqrt _ / _) = _
  rw [div_mul_div_comm, Real.mul_self_sqrt (by positivity)]
  field_simp

theorem corners_raise (hE : c.E.Lawful) (hd : 17 ≤ d) {m : Nat} (hm : 0 < m) (hpop : c.popSize = 2 * m) (hep : 0 < c.epoch) {a b : ℝ} (hab : a < b)
    (t : Option (Term ℝ)) (save : Bool) (bs : Base c) :
    solve (algo : Algo c Unit Unit) ⟨t, .rows (List.replicate m (List.replicate d a) ++ List.replicate m (List.replicate d b)), save⟩ bs = .error .value := by
  refine solve_rows_raises hE (A := algo) rfl rfl rfl rfl (fun x => DT.pure trivial) (by simp; omega) (by omega) hep ?_ ?_ t save bs
  · intro r hr
    simp only [List.mem_append, List.mem_replicate] at hr
    rcases hr with ⟨-, rfl⟩ | ⟨-, rfl⟩ <;> simp
  · intro s hs
    obtain ⟨r, hr, h0, h1⟩ := resistance_corners (by omega) hm hab hs
    have hd' : (17 : ℝ) ≤ d := by exact_mod_cast hd
    have h2 : 2 < r := by nlinarith
    have hi : (ionized s.pop : D c _) = dthrow .value := by
      unfold ionized
      rw [hr]
      dsimp only
      rw [if_pos]
      right
      simp only [real_ofNat]
      push_cast
      linarith
    show evolve 1 s = _
    unfold evolve
    show (draw (ionized s.pop) s >>= fun p => _) = _
    rw [hi]; rfl

end OriginalESO

theorem iter_first_error {d : Nat} {K : Type} [Num K] {c : Cfg d K} {X Y α : Type} {f : Nat → α → M c X Y α} {a : α} {s : St c X Y} {x : Err} (h : f 0 a s = .error x) :
    ∀ n, iter (n + 1) f a s = .error x
  | 0 => by
    show (f 0 a s) = _
    exact h
  | n + 1 => by
    show (iter (n + 1) f a s >>= fun p => _) = _
    rw [iter_first_error h n]; rfl

namespace QleSCA

variable {d : Nat} {c : Cfg d ℝ}

theorem normV_self (x : Vec d ℝ) : normV (fun j => x j - x j) = 0 := by
  unfold normV normL
  show Real.sqrt _ = 0
  rw [sumL_real]
  have : (List.map (fun z : ℝ => z * z) (List.ofFn fun j => x j - x j)).sum = 0 := by
    apply List.sum_eq_zero
    intro z hz
    simp at hz
    exact hz.2.symm ▸ rfl
  simp_all

theorem collapsed_raises (hE : c.E.Lawful) (p : Params ℝ) (hpos : 0 < c.popSize) (hep : 0 < c.epoch) {row : List ℝ} (hr : row.length = d)
    (t : Option (Term ℝ)) (save : Bool) (b : Base c) :
    solve (algo p : Algo c (Table ℝ) Unit) ⟨t, .rows (List.replicate c.popSize row), save⟩ b = .error .stopIteration := by
  refine solve_rows_raises hE (A := algo p) rfl rfl rfl rfl (fun x => DT.pure trivial) (by simp) hpos hep ?_ ?_ t save b
  · intro r h
    rw [List.mem_replicate] at h
    rw [h.2]; exact hr
  · intro s hs
    have hlen : s.pop.length = c.popSize := by simpa using congrArg List.length hs
    have hsol : ∀ x ∈ s.pop, ∀ y ∈ s.pop, x.sol = y.sol := by
      intro x hx y hy
      have h1 : List.ofFn x.sol ∈ List.replicate c.popSize row := hs ▸ List.mem_map.2 ⟨x, hx, rfl⟩
      have h2 : List.ofFn y.sol ∈ List.replicate c.popSize row := hs ▸ List.mem_map.2 ⟨y, hy, rfl⟩
      rw [List.mem_replicate] at h1 h2
      exact List.ofFn_injective (h1.2.trans h2.2.symm)
    have hden : (density (s.pop.map (·.sol)) : D c ℝ) = dthrow .stopIteration := by
      unfold density
      dsimp only
      rw [if_pos]
      have h0 : maxL ((s.pop.map (·.sol)).flatMap (fun x => (s.pop.map (·.sol)).map (fun y => normV (fun j => x j - y j)))) = 0 := by
        have hne : 0 < ((s.pop.map (·.sol)).flatMap (fun x => (s.pop.map (·.sol)).map (fun y => normV (fun j => x j - y j)))).length := by
          obtain ⟨a, l, h⟩ := List.exists_cons_of_length_pos (l := s.pop) (by omega)
          rw [h]; simp
        have := (maxL_spec hne).1
        generalize maxL ((s.pop.map (·.sol)).flatMap (fun x => (s.pop.map (·.sol)).map (fun y => normV (fun j => x j - y j)))) = z at *
        simp only [List.mem_flatMap, List.mem_map] at this
        obtain ⟨_, ⟨x, hx, rfl⟩, _, ⟨y, hy, rfl⟩, rfl⟩ := this
        rw [hsol x hx y hy]
        exact normV_self _
      rw [h0]
      rw [real_ofNat]
      simp
    obtain ⟨n, hn⟩ : ∃ n, c.popSize = n + 1 := ⟨c.popSize - 1, by omega⟩
    show evolve p 1 s = _
    unfold evolve
    rw [hn]
    refine iter_first_error ?_ n
    obtain ⟨a, ha⟩ : ∃ a, s.pop[0]? = some a := ⟨_, List.getElem?_eq_getElem (by omega)⟩
    have hpa : (popAt 0 : M c (Table ℝ) Unit _) s = .ok (a, s) := by
      unfold popAt
      simp [ha]
    unfold step
    show (popAt 0 s >>= fun q => _) = _
    rw [hpa]
    show (draw (plan s a) s >>= fun q => _) = _
    have hp : (plan s a : D c _) = dthrow .stopIteration := by
      unfold plan state
      rw [hden]
      rfl
    rw [hp]; rfl

end QleSCA

section
variable {d : Nat} {K : Type} [Num K] {c : Cfg d K} {X Y : Type}

/-- if `evolve` never returns in the first epoch, `solve` does not return -/
theorem solve_not_ok (hE : c.E.Lawful) {A : Algo c X Y} (hep : 0 < c.epoch) (hx : ∀ s : St c X Y, Wp (fun _ => True) (A.evolve 1) s (fun _ _ => False))
    (o : RunOpts K) (b : Base c) (s : St c X Y) (h : FinalHist d K X) : solve A o b ≠ .ok (s, h) := by
  intro hs
  obtain ⟨o', b1, pop0, y, b2, s0, s1, -, -, -, -, h5, -⟩ := solve_ok hs
  obtain ⟨n, hn⟩ : ∃ n, c.epoch = n + 1 := ⟨c.epoch - 1, by omega⟩
  have hw := epochStep_wp (Er := fun _ => True) (o := o') (epoch := 1) (s := s1) (R := fun _ => False) (A := A) hE (fun r v => hx _) (.inl fun _ => trivial)
  unfold Wp at hw
  cases h : epochStep A o' 1 s1 with
  | error e => rw [hn, mainLoop_err h] at h5; cases h5
  | ok p => rw [h] at hw; obtain ⟨_, h, -⟩ := hw; exact h.elim

theorem dt_iter_never {α : Type} {f : Nat → α → D c α} {a : α} (h : DT (fun _ => True) (f 0 a) (fun _ => False)) :
    ∀ n, DT (fun _ => True) (iter (n + 1) f a : D c α) (fun _ => False)
  | 0 => DT.bind (R := fun x => x = a) (DT.pure rfl) fun x hx => by rw [hx]; exact h
  | n + 1 => DT.bind (R := fun _ => False) (dt_iter_never h n) fun _ h => h.elim

end

namespace OriginalCDDO

variable {d : Nat} {K : Type} [Num K] {c : Cfg d K}

/-- `generator.integers(lb[0], ub[0] + 1)` has nothing to draw from -/
theorem never (hpos : 0 < c.popSize) (p : Params K) (hb : Num.trunc (Vec.at c.P.ub 0 + 1) ≤ Num.trunc (Vec.at c.P.lb 0)) (ep : Nat) (s : St c Unit (Vars d K)) :
    Wp (fun _ => True) (evolve p ep : M c Unit (Vars d K) Unit) s (fun _ _ => False) := by
  unfold evolve
  refine Wp.bind (Wp.get (Wp.bind (Wp.draw (R := fun _ => True) DT.any fun pat r v _ => Wp.bind (Wp.draw (R := fun _ => False) ?_ fun _ _ _ h => h.elim))))
  unfold strokes
  obtain ⟨n, hn⟩ : ∃ n, c.popSize = n + 1 := ⟨c.popSize - 1, by omega⟩
  rw [hn]
  refine dt_iter_never ?_ n
  refine DT.bind (R := fun _ => False) ?_ fun _ h => h.elim
  unfold stroke
  refine DT.bind (R := fun _ => False) ?_ fun _ h => h.elim
  unfold integers
  rw [if_neg (by omega)]
  exact DT.throw trivial

end OriginalCDDO

end Mealpy
