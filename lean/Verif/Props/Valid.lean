import Verif.Term
import Verif.Witness
import Mathlib.Tactic.Linarith
import Mathlib.Tactic.NormNum
import Mathlib.Tactic.SplitIfs

/-!
# C30, C31, C39, C40, C41: stopping conditions, parameters, validation, modes
-/

set_option linter.unusedSectionVars false
set_option linter.unusedSimpArgs false

namespace Mealpy
open Valid

/-! ## C30 -/

namespace Spec
/-- `n` is the length of the longest run of steps at the end of the history `l` (oldest first)
that all move by at most `eps`: the last `n` steps are small and the step before them, if any,
is not.  Step `j` counted from the end goes from `l[len-2-j]` to `l[len-1-j]`. -/
def TrailingStreak {K : Type} [LinearOrder K] [Sub K] (absf : K → K) (eps : K) (l : List K)
    (n : Nat) : Prop :=
  n ≤ l.length - 1
  ∧ (∀ (j : Nat) (a b : K), j < n → l[l.length - 2 - j]? = some a → l[l.length - 1 - j]? = some b →
      absf (a - b) ≤ eps)
  ∧ (∀ (a b : K), n < l.length - 1 → l[l.length - 2 - n]? = some a → l[l.length - 1 - n]? = some b →
      ¬ absf (a - b) ≤ eps)
end Spec

section C30
variable {K : Type} [LinearOrder K] [Sub K]

theorem repeatedTimesFrom_append (absf : K → K) (eps : K) (l : List K) (x y : K) (c : Nat) :
    repeatedTimesFrom absf eps (l ++ [x, y]) c =
      if absf (x - y) ≤ eps then repeatedTimesFrom absf eps (l ++ [x]) c + 1 else 0 := by
  induction l generalizing c with
  | nil => simp [repeatedTimesFrom]
  | cons a l ih =>
    cases l with
    | nil => simp [repeatedTimesFrom]
    | cons b l =>
      have := ih (if absf (a - b) ≤ eps then c + 1 else 0)
      simpa [repeatedTimesFrom] using this

/-- C30: the early-stopping counter is the number of most recent consecutive epochs whose global
best moved by at most `eps`. -/
theorem C30_trailing_streak (absf : K → K) (eps : K) (globalBest : List K) :
    Spec.TrailingStreak absf eps globalBest (repeatedTimes absf eps globalBest) := by
  unfold repeatedTimes
  induction globalBest using List.reverseRecOn with
  | nil => refine ⟨by simp [repeatedTimesFrom], ?_, ?_⟩ <;> simp [repeatedTimesFrom]
  | append_singleton l y ih =>
    rcases List.eq_nil_or_concat l with rfl | ⟨l, x, rfl⟩
    · refine ⟨by simp [repeatedTimesFrom], ?_, ?_⟩ <;> simp [repeatedTimesFrom]
    · have e : (l.concat x) ++ [y] = l ++ [x, y] := by simp
      rw [List.concat_eq_append] at ih
      rw [e, repeatedTimesFrom_append]
      obtain ⟨h1, h2, h3⟩ := ih
      set n := repeatedTimesFrom absf eps (l ++ [x]) 0 with hn
      have hlen : (l ++ [x, y]).length = l.length + 2 := by simp
      have hlen' : (l ++ [x]).length = l.length + 1 := by simp
      rw [hlen'] at h1 h2 h3
      have get : ∀ i : Nat, i < l.length + 1 → (l ++ [x, y])[i]? = (l ++ [x])[i]? := by
        intro i hi
        have : l ++ [x, y] = (l ++ [x]) ++ [y] := by simp
        rw [this, List.getElem?_append_left (by simpa using hi)]
      by_cases hle : absf (x - y) ≤ eps
      · rw [if_pos hle]
        refine ⟨by rw [hlen]; omega, ?_, ?_⟩
        · intro j a b hj ha hb
          rw [hlen] at ha hb
          cases j with
          | zero => simp at ha hb; subst ha; subst hb; exact hle
          | succ j =>
            have hj' : j < n := by omega
            rw [get _ (by omega)] at ha hb
            refine h2 j a b hj' ?_ ?_
            · rw [← ha]; congr 1; omega
            · rw [← hb]; congr 1; omega
        · intro a b hn' ha hb
          rw [hlen] at hn' ha hb
          rw [get _ (by omega)] at ha hb
          refine h3 a b (by omega) ?_ ?_
          · rw [← ha]; congr 1; omega
          · rw [← hb]; congr 1; omega
      · rw [if_neg hle]
        refine ⟨by omega, by intro j a b hj; omega, ?_⟩
        intro a b _ ha hb
        rw [hlen] at ha hb
        simp at ha hb
        subst ha; subst hb; exact hle

/-- C30: the specification determines the number. -/
theorem C30_unique (absf : K → K) (eps : K) (l : List K) (m n : Nat)
    (hm : Spec.TrailingStreak absf eps l m) (hn : Spec.TrailingStreak absf eps l n) : m = n := by
  have aux : ∀ m n, Spec.TrailingStreak absf eps l m → Spec.TrailingStreak absf eps l n →
      ¬ m < n := by
    intro m n hm hn hlt
    obtain ⟨_, _, h3⟩ := hm
    obtain ⟨h1, h2, _⟩ := hn
    have hb : l.length - 1 - m < l.length := by omega
    have ha : l.length - 2 - m < l.length := by omega
    exact h3 _ _ (by omega) (List.getElem?_eq_getElem ha) (List.getElem?_eq_getElem hb)
      (h2 m _ _ hlt (List.getElem?_eq_getElem ha) (List.getElem?_eq_getElem hb))
  have := aux m n hm hn
  have := aux n m hn hm
  omega

/-- 5,3,3,3: two repeated steps -/
example : repeatedTimes (fun x : ℚ => |x|) (1 / 10 ^ 10) [5, 3, 3, 3] = 2 := by decide +kernel

end C30

/-! ## C31 -/

section C31
variable {K : Type} [LinearOrder K] [Sub K]

namespace Spec
/-- the criterion named by a message is configured and reached -/
def Reached (t : Term K) (epoch fe : Int) (time : K) (es : Int) : StopMsg → Prop
  | .MG => ∃ m, t.maxEpoch = some m ∧ m ≤ epoch
  | .FE => ∃ m, t.maxFe = some m ∧ m ≤ fe
  | .TB => ∃ m, t.maxTime = some m ∧ m ≤ time - t.startTime
  | .ES => ∃ m, t.maxEarlyStop = some m ∧ m ≤ es

/-- the documented order of the criteria -/
def msgRank : StopMsg → Nat
  | .MG => 0 | .FE => 1 | .TB => 2 | .ES => 3
end Spec

/-- C31: `should_terminate` is `True` exactly when some configured limit is reached, and the message
names the first reached limit in the order MG, FE, TB, ES. -/
theorem C31_should_terminate (t : Term K) (epoch fe : Int) (time : K) (es : Int) :
    ((shouldTerminate t epoch fe time es).isSome
      ↔ ∃ m, Spec.Reached t epoch fe time es m)
    ∧ ∀ m, shouldTerminate t epoch fe time es = some m
      ↔ (Spec.Reached t epoch fe time es m
        ∧ ∀ m', Spec.Reached t epoch fe time es m' → Spec.msgRank m ≤ Spec.msgRank m') := by
  have key : ∀ m, shouldTerminate t epoch fe time es = some m
      ↔ (Spec.Reached t epoch fe time es m
        ∧ ∀ m', Spec.Reached t epoch fe time es m' → Spec.msgRank m ≤ Spec.msgRank m') := by
    have eMG : limitHit t.maxEpoch (fun m => decide (epoch ≥ m)) = true
        ↔ Spec.Reached t epoch fe time es .MG := by
      cases h : t.maxEpoch <;> simp [Spec.Reached, h, limitHit]
    have eFE : limitHit t.maxFe (fun m => decide (fe ≥ m)) = true
        ↔ Spec.Reached t epoch fe time es .FE := by
      cases h : t.maxFe <;> simp [Spec.Reached, h, limitHit]
    have eTB : limitHit t.maxTime (fun m => decide (time - t.startTime ≥ m)) = true
        ↔ Spec.Reached t epoch fe time es .TB := by
      cases h : t.maxTime <;> simp [Spec.Reached, h, limitHit]
    have eES : limitHit t.maxEarlyStop (fun m => decide (es ≥ m)) = true
        ↔ Spec.Reached t epoch fe time es .ES := by
      cases h : t.maxEarlyStop <;> simp [Spec.Reached, h, limitHit]
    intro m
    unfold shouldTerminate
    have all : (∀ m', Spec.Reached t epoch fe time es m' → Spec.msgRank m ≤ Spec.msgRank m')
        ↔ (Spec.Reached t epoch fe time es .MG → Spec.msgRank m ≤ 0)
          ∧ (Spec.Reached t epoch fe time es .FE → Spec.msgRank m ≤ 1)
          ∧ (Spec.Reached t epoch fe time es .TB → Spec.msgRank m ≤ 2)
          ∧ (Spec.Reached t epoch fe time es .ES → Spec.msgRank m ≤ 3) :=
      ⟨fun h => ⟨h .MG, h .FE, h .TB, h .ES⟩, fun h m' => by
        cases m' <;> simp only [Spec.msgRank]
        · exact h.1
        · exact h.2.1
        · exact h.2.2.1
        · exact h.2.2.2⟩
    rw [all]
    split_ifs with h1 h2 h3 h4
    · rw [eMG] at h1
      cases m <;> simp [Spec.msgRank, h1]
    · rw [eMG] at h1; rw [eFE] at h2
      cases m <;> simp [Spec.msgRank, h1, h2]
    · rw [eMG] at h1; rw [eFE] at h2; rw [eTB] at h3
      cases m <;> simp [Spec.msgRank, h1, h2, h3]
    · rw [eMG] at h1; rw [eFE] at h2; rw [eTB] at h3; rw [eES] at h4
      cases m <;> simp [Spec.msgRank, h1, h2, h3, h4]
    · rw [eMG] at h1; rw [eFE] at h2; rw [eTB] at h3; rw [eES] at h4
      cases m <;> simp [Spec.msgRank, h1, h2, h3, h4]
  refine ⟨?_, key⟩
  constructor
  · intro h
    obtain ⟨m, hm⟩ := Option.isSome_iff_exists.1 h
    exact ⟨m, ((key m).1 hm).1⟩
  · rintro ⟨m, hm⟩
    by_contra hn
    have hnone : shouldTerminate t epoch fe time es = none := by
      cases h : shouldTerminate t epoch fe time es <;> simp_all
    have no : ∀ r : Nat, ∀ m, Spec.msgRank m = r → ¬ Spec.Reached t epoch fe time es m := by
      intro r
      induction r using Nat.strong_induction_on with
      | _ r ih =>
        intro m hr hreach
        have := (key m).2 ⟨hreach, fun m' hm' => by
          by_contra hlt
          exact ih (Spec.msgRank m') (by omega) m' rfl hm'⟩
        rw [hnone] at this
        cases this
    exact no _ m rfl hm
end C31

theorem checkInt_closed_int {v : PyVal} {l u : Int} {z : Int}
    (h : checkInt v (some (.list (.fin l) (.fin u))) = .ok z) : l ≤ z ∧ z ≤ u := by
  unfold checkInt at h
  cases hv : v.number with
  | none => simp [hv] at h
  | some x =>
    simp only [hv] at h
    split at h
    · rename_i hb
      cases x with
      | fin q =>
        simp only [isInBound, Bound.lo, Bound.hi, Bound.ops, Ext.le] at hb
        simp at hb
        simp only [pyInt, Except.ok.injEq] at h
        obtain ⟨h1, h2⟩ := hb
        subst h
        split
        · refine ⟨Int.le_floor.2 h1, ?_⟩
          have : ((⌊q⌋ : Int) : ℚ) ≤ u := le_trans (Int.floor_le q) h2
          exact_mod_cast this
        · refine ⟨?_, Int.ceil_le.2 h2⟩
          have : ((l : Int) : ℚ) ≤ ⌈q⌉ := le_trans h1 (Int.le_ceil q)
          exact_mod_cast this
      | _ => simp [pyInt] at h
    · simp at h

/-- C31: a `Termination` without any limit is rejected, and so is any limit outside its documented
range; an accepted one has at least one limit and every limit in range. -/
theorem C31_constructor (me mf mt ms : PyVal) (eps : ℚ) :
    (mkTermination .none .none .none .none eps = .error .value)
    ∧ ∀ t, mkTermination me mf mt ms eps = .ok t →
      (t.maxEpoch ≠ none ∨ t.maxFe ≠ none ∨ t.maxTime ≠ none ∨ t.maxEarlyStop ≠ none)
      ∧ (∀ m, t.maxEpoch = some m → 1 ≤ m ∧ m ≤ 10000000)
      ∧ (∀ m, t.maxFe = some m → 10 ≤ m ∧ m ≤ 1000000000)
      ∧ (∀ m, t.maxTime = some m → 1 / 10 ≤ m ∧ m ≤ 1000000)
      ∧ (∀ m, t.maxEarlyStop = some m → 1 ≤ m ∧ m ≤ 100000)
      ∧ (t.maxEpoch = none ↔ me = .none) ∧ (t.maxFe = none ↔ mf = .none)
      ∧ (t.maxTime = none ↔ mt = .none) ∧ (t.maxEarlyStop = none ↔ ms = .none) := by
  refine ⟨by simp [mkTermination], ?_⟩
  intro t h
  unfold mkTermination at h
  split at h
  · cases h
  · rename_i hne
    have oi : ∀ (v : PyVal) (l u : Int) (r : Option Int),
        optInt v (.list (.fin l) (.fin u)) = .ok r →
        (∀ m, r = some m → l ≤ m ∧ m ≤ u) ∧ (r = none ↔ v = .none) := by
      intro v l u r hr
      unfold optInt at hr
      split at hr
      · rename_i hv
        cases hr
        simp [hv]
      · rename_i hv
        cases hc : checkInt v (some (.list (.fin l) (.fin u))) with
        | error e => simp [hc, Except.map] at hr
        | ok z =>
          simp [hc, Except.map] at hr
          subst hr
          have := checkInt_closed_int hc
          refine ⟨fun m hm => ?_, by simp [hv]⟩
          simp at hm; subst hm; exact this
    cases h1 : optInt me epochRange with
    | error e => simp [h1, bind, Except.bind] at h
    | ok re =>
    cases h2 : optInt mf feRange with
    | error e => simp [h1, h2, bind, Except.bind] at h
    | ok rf =>
    cases h3 : optTime mt timeRange with
    | error e => simp [h1, h2, h3, bind, Except.bind] at h
    | ok rt =>
    cases h4 : optInt ms esRange with
    | error e => simp [h1, h2, h3, h4, bind, Except.bind] at h
    | ok rs =>
    simp only [h1, h2, h3, h4, bind, Except.bind, Except.ok.injEq] at h
    subst h
    have e1 := oi me 1 10000000 re (by simpa [epochRange] using h1)
    have e2 := oi mf 10 1000000000 rf (by simpa [feRange] using h2)
    have e4 := oi ms 1 100000 rs (by simpa [esRange] using h4)
    have e3 : (∀ m, rt = some m → 1 / 10 ≤ m ∧ m ≤ 1000000) ∧ (rt = none ↔ mt = .none) := by
      unfold optTime at h3
      split at h3
      · rename_i hv
        cases h3; simp [hv]
      · rename_i hv
        unfold checkFloat at h3
        cases hn : mt.number with
        | none => simp [hn] at h3
        | some x =>
          simp only [hn] at h3
          by_cases hb : isInBound x timeRange
          · simp only [hb, if_true] at h3
            cases x with
            | fin q =>
              simp at h3
              subst h3
              simp only [isInBound, timeRange, Bound.lo, Bound.hi, Bound.ops, Ext.le] at hb
              simp at hb
              refine ⟨fun m hm => ?_, by simp [hv]⟩
              simp at hm; subst hm
              exact ⟨by linarith [hb.1], hb.2⟩
            | _ => simp at h3
          · simp [hb] at h3
    refine ⟨?_, e1.1, e2.1, e3.1, e4.1, e1.2, e2.2, e3.2, e4.2⟩
    by_contra hcon
    push Not at hcon
    exact hne ⟨e1.2.1 hcon.1, e2.2.1 hcon.2.1, e3.2.1 hcon.2.2.1, e4.2.1 hcon.2.2.2⟩

/-- a legal combination is accepted; a too small one is not -/
example : (∃ t, mkTermination (.int 100) (.int 5000) .none .none (1 / 10 ^ 10) = .ok t
      ∧ shouldTerminate t 3 5000 0 0 = some .FE)
    ∧ mkTermination .none (.int 9) .none .none (1 / 10 ^ 10) = .error .value := by
  refine ⟨⟨⟨some 100, some 5000, none, none, 1 / 10 ^ 10, 0⟩, ?_, ?_⟩, ?_⟩
  · decide +kernel
  · decide +kernel
  · decide +kernel

/-! ## C39 -/

section C39
variable {V : Type}

namespace Spec
/-- every reported parameter has the value of the attribute of that name -/
def Consistent (st : ParamState V) : Prop :=
  (st.parameters.map (·.1)).Nodup ∧ ∀ k v, (k, v) ∈ st.parameters → st.attrs k = some v
end Spec

theorem dictPut_mem {d : List (String × V)} {k k' : String} {v v' : V}
    (_hnd : (d.map (·.1)).Nodup) :
    (k', v') ∈ dictPut d k v ↔ (k' = k ∧ v' = v) ∨ (k' ≠ k ∧ (k', v') ∈ d) := by
  unfold dictPut
  split
  · rename_i h
    simp only [List.any_eq_true, decide_eq_true_eq] at h
    obtain ⟨q, hq, hqk⟩ := h
    simp only [List.mem_map]
    constructor
    · rintro ⟨p, hp, he⟩
      split at he
      · rename_i hpk
        cases he; left; exact ⟨rfl, rfl⟩
      · rename_i hpk
        subst he
        right; exact ⟨hpk, hp⟩
    · rintro (⟨rfl, rfl⟩ | ⟨hne, hm⟩)
      · exact ⟨q, hq, by simp [hqk]⟩
      · exact ⟨(k', v'), hm, by simp [hne]⟩
  · rename_i h
    simp only [List.any_eq_true, decide_eq_true_eq, not_exists, not_and] at h
    simp only [List.mem_append, List.mem_singleton, Prod.mk.injEq]
    constructor
    · rintro (hm | ⟨rfl, rfl⟩)
      · exact Or.inr ⟨h _ hm, hm⟩
      · exact Or.inl ⟨rfl, rfl⟩
    · rintro (⟨rfl, rfl⟩ | ⟨_, hm⟩)
      · exact Or.inr ⟨rfl, rfl⟩
      · exact Or.inl hm

theorem dictPut_keys (d : List (String × V)) (k : String) (v : V) :
    (dictPut d k v).map (·.1) =
      if k ∈ d.map (·.1) then d.map (·.1) else d.map (·.1) ++ [k] := by
  unfold dictPut
  have e : (d.any (fun p => decide (p.1 = k)) = true) ↔ k ∈ d.map (·.1) := by
    simp only [List.any_eq_true, decide_eq_true_eq, List.mem_map]
  by_cases h : k ∈ d.map (·.1)
  · rw [if_pos (e.2 h), if_pos h, List.map_map]
    apply List.map_congr_left
    intro p _
    simp only [Function.comp]
    split
    · rename_i hp; exact hp.symm
    · rfl
  · rw [if_neg (fun hh => h (e.1 hh)), if_neg h]; simp

theorem dictPut_nodup {d : List (String × V)} (k : String) (v : V) (hnd : (d.map (·.1)).Nodup) :
    ((dictPut d k v).map (·.1)).Nodup := by
  rw [dictPut_keys]
  split
  · exact hnd
  · rename_i h
    rw [List.nodup_append]
    refine ⟨hnd, by simp, ?_⟩
    intro a ha b hb
    simp at hb; subst hb
    rintro rfl; exact h ha

/-- C39: with any unknown name `set_parameters(dict)` raises and changes nothing. -/
theorem C39_unknown_rejected (params : List (String × V)) (st : ParamState V)
    (h : ∃ p ∈ params, p.1 ∉ st.parameters.map (·.1)) :
    setParamsDict params st = (.error .value, st) := by
  obtain ⟨p, hp, hn⟩ := h
  unfold setParamsDict
  rw [if_neg]
  intro hall
  rw [List.all_eq_true] at hall
  have := hall p hp
  simp only [List.any_eq_true, decide_eq_true_eq] at this
  obtain ⟨q, hq, he⟩ := this
  exact hn (List.mem_map.2 ⟨q, hq, he⟩)

/-- C39: with only known (distinct) names it succeeds, the given attributes and parameters get the
given values, and every other attribute, every other parameter, the set of parameter names and
their order are unchanged. -/
theorem C39_known_accepted (params : List (String × V)) (st : ParamState V)
    (hd : (params.map (·.1)).Nodup) (hnd : (st.parameters.map (·.1)).Nodup)
    (h : ∀ p ∈ params, p.1 ∈ st.parameters.map (·.1)) :
    (setParamsDict params st).1 = .ok ()
    ∧ (∀ k v, (k, v) ∈ params →
        (setParamsDict params st).2.attrs k = some v
        ∧ (k, v) ∈ (setParamsDict params st).2.parameters)
    ∧ (∀ k, k ∉ params.map (·.1) →
        (setParamsDict params st).2.attrs k = st.attrs k
        ∧ ∀ v, (k, v) ∈ (setParamsDict params st).2.parameters ↔ (k, v) ∈ st.parameters)
    ∧ (setParamsDict params st).2.parameters.map (·.1) = st.parameters.map (·.1)
    ∧ (setParamsDict params st).2.namesOrdered = st.namesOrdered := by
  have hall : params.all (fun p => st.parameters.any (fun q => q.1 = p.1)) = true := by
    rw [List.all_eq_true]
    intro p hp
    obtain ⟨q, hq, he⟩ := List.mem_map.1 (h p hp)
    rw [List.any_eq_true]
    exact ⟨q, hq, by simpa using he⟩
  unfold setParamsDict
  rw [if_pos hall]
  refine ⟨rfl, ?_⟩
  clear hall
  simp only
  induction params generalizing st with
  | nil => simp
  | cons p params ih =>
    simp only [List.map_cons, List.nodup_cons] at hd
    simp only [List.foldl_cons]
    set st' : ParamState V :=
      { st with attrs := setAttr st.attrs p.1 p.2, parameters := dictPut st.parameters p.1 p.2 }
      with hst'
    have hk : st'.parameters.map (·.1) = st.parameters.map (·.1) := by
      simp only [hst', dictPut_keys]
      rw [if_pos (h p (by simp))]
    have hnd' : (st'.parameters.map (·.1)).Nodup := by rw [hk]; exact hnd
    obtain ⟨i1, i2, i3, i4⟩ := ih st' hd.2 hnd' (fun q hq => by
      rw [hk]; exact h q (by simp [hq]))
    refine ⟨?_, ?_, ?_, ?_⟩
    · intro k v hkv
      rcases List.mem_cons.1 hkv with hkv | hkv
      · have hk1 : k = p.1 := by rw [← hkv]
        have hv1 : v = p.2 := by rw [← hkv]
        obtain ⟨j1, j2⟩ := i2 k (by rw [hk1]; exact hd.1)
        refine ⟨?_, ?_⟩
        · rw [j1]; simp [hst', setAttr, hk1, hv1]
        · rw [j2]
          simp only [hst']
          rw [dictPut_mem hnd]
          exact Or.inl ⟨hk1, hv1⟩
      · exact i1 k v hkv
    · intro k hkn
      simp only [List.map_cons, List.mem_cons, not_or] at hkn
      obtain ⟨j1, j2⟩ := i2 k hkn.2
      refine ⟨by rw [j1]; simp [hst', setAttr, hkn.1], fun v => ?_⟩
      rw [j2]
      simp only [hst']
      rw [dictPut_mem hnd]
      simp [hkn.1]
    · rw [i3, hk]
    · rw [i4]

/-- C39: `set_parameters(list)` for existing attributes reports exactly these attributes, and the
reported parameters agree with the attributes. -/
theorem C39_list (names : List String) (st : ParamState V) (h : ∀ n ∈ names, st.attrs n ≠ none) :
    (setParamsList names st).1 = .ok ()
    ∧ (setParamsList names st).2.attrs = st.attrs
    ∧ Spec.Consistent (setParamsList names st).2
    ∧ ∀ n, n ∈ (setParamsList names st).2.parameters.map (·.1) ↔ n ∈ names := by
  have go : ∀ (names : List String) (st : ParamState V), (∀ n ∈ names, st.attrs n ≠ none) →
      Spec.Consistent st →
      (setParamsList.go names st).1 = .ok ()
      ∧ (setParamsList.go names st).2.attrs = st.attrs
      ∧ Spec.Consistent (setParamsList.go names st).2
      ∧ ∀ n, n ∈ (setParamsList.go names st).2.parameters.map (·.1)
          ↔ n ∈ names ∨ n ∈ st.parameters.map (·.1) := by
    intro names
    induction names with
    | nil => intro st _ hc; exact ⟨rfl, rfl, hc, by simp [setParamsList.go]⟩
    | cons n ns ih =>
      intro st hne hc
      obtain ⟨v, hv⟩ := Option.ne_none_iff_exists'.1 (hne n (by simp))
      have hc' : Spec.Consistent { st with parameters := dictPut st.parameters n v } := by
        refine ⟨dictPut_nodup n v hc.1, ?_⟩
        intro k w hkw
        simp only at hkw ⊢
        rw [dictPut_mem hc.1] at hkw
        rcases hkw with ⟨rfl, rfl⟩ | ⟨_, hm⟩
        · exact hv
        · exact hc.2 k w hm
      have := ih { st with parameters := dictPut st.parameters n v }
        (fun m hm => hne m (by simp [hm])) hc'
      simp only [setParamsList.go, hv]
      refine ⟨this.1, this.2.1, this.2.2.1, ?_⟩
      intro m
      rw [this.2.2.2 m]
      simp only [dictPut_keys]
      split
      · rename_i hin
        constructor
        · rintro (h | h)
          · exact Or.inl (by simp [h])
          · exact Or.inr h
        · rintro (h | h)
          · rcases List.mem_cons.1 h with rfl | h
            · exact Or.inr hin
            · exact Or.inl h
          · exact Or.inr h
      · simp only [List.mem_append, List.mem_singleton, List.mem_cons]
        tauto
  have := go names { st with namesOrdered := some names, parameters := [] } h
    ⟨by simp, by simp⟩
  refine ⟨this.1, this.2.1, this.2.2.1, fun n => ?_⟩
  have := this.2.2.2 n
  simpa [setParamsList] using this

/-- C39: naming an attribute the optimizer does not have makes `set_parameters(list)` raise `KeyError`; no
attribute changes, but the reported parameters are those named before it (the old ones are lost). -/
theorem C39_list_unknown (l r : List String) (n : String) (st : ParamState V) (hl : ∀ k ∈ l, st.attrs k ≠ none)
    (hn : st.attrs n = none) :
    (setParamsList (l ++ n :: r) st).1 = .error .key
    ∧ (setParamsList (l ++ n :: r) st).2.attrs = st.attrs
    ∧ (setParamsList (l ++ n :: r) st).2.parameters = (setParamsList l st).2.parameters := by
  have go : ∀ (l : List String) (st : ParamState V), (∀ k ∈ l, st.attrs k ≠ none) → st.attrs n = none →
      (setParamsList.go (l ++ n :: r) st).1 = .error .key
      ∧ (setParamsList.go (l ++ n :: r) st).2.attrs = st.attrs
      ∧ (setParamsList.go (l ++ n :: r) st).2.parameters = (setParamsList.go l st).2.parameters := by
    intro l
    induction l with
    | nil =>
      intro st _ hn
      simp only [List.nil_append, setParamsList.go, hn]
      exact ⟨trivial, trivial, trivial⟩
    | cons k ks ih =>
      intro st hk hn
      obtain ⟨v, hv⟩ := Option.ne_none_iff_exists'.1 (hk k (List.mem_cons_self ..))
      have := ih { st with parameters := dictPut st.parameters k v } (fun k' h' => hk k' (List.mem_cons_of_mem _ h')) hn
      simp only [List.cons_append, setParamsList.go, hv]
      exact this
  -- the ordered names differ between the two calls, the parameters do not
  have hpar : ∀ (l : List String) (a b : ParamState V), a.attrs = b.attrs → a.parameters = b.parameters →
      (setParamsList.go l a).2.parameters = (setParamsList.go l b).2.parameters := by
    intro l
    induction l with
    | nil => intro a b _ h; exact h
    | cons k ks ih =>
      intro a b h1 h2
      simp only [setParamsList.go, ← h1]
      cases a.attrs k with
      | none => exact h2
      | some v => exact ih _ _ rfl (by simp only [h2])
  obtain ⟨h1, h2, h3⟩ := go l { st with namesOrdered := some (l ++ n :: r), parameters := [] } hl hn
  exact ⟨h1, h2, h3.trans (hpar l _ _ rfl rfl)⟩

example : (fun n => if n = "epoch" then some 10 else none : String → Option Nat) "pop" = none := rfl

/-- C39: consistency of parameters and attributes survives `set_parameters(dict)`. -/
theorem C39_consistent_preserved (params : List (String × V)) (st : ParamState V)
    (hd : (params.map (·.1)).Nodup) (hc : Spec.Consistent st) :
    Spec.Consistent (setParamsDict params st).2 := by
  by_cases h : ∀ p ∈ params, p.1 ∈ st.parameters.map (·.1)
  · obtain ⟨_, h2, h3, h4, _⟩ := C39_known_accepted params st hd hc.1 h
    refine ⟨by rw [h4]; exact hc.1, ?_⟩
    intro k v hkv
    by_cases hk : k ∈ params.map (·.1)
    · obtain ⟨⟨k', w⟩, hp, rfl⟩ := List.mem_map.1 hk
      obtain ⟨ha, hb⟩ := h2 k' w hp
      have hnd : ((setParamsDict params st).2.parameters.map (·.1)).Nodup := by rw [h4]; exact hc.1
      have : w = v := by
        have inj := List.inj_on_of_nodup_map hnd hb hkv rfl
        simpa using inj
      rw [ha, this]
    · obtain ⟨ha, hb⟩ := h3 k hk
      rw [ha]; exact hc.2 k v ((hb v).1 hkv)
  · push Not at h
    rw [C39_unknown_rejected params st h]; exact hc

/-- C39: giving the reported parameters back changes nothing. -/
theorem C39_roundtrip (st : ParamState V) (hc : Spec.Consistent st) :
    setParamsDict st.parameters st = (.ok (), st) := by
  obtain ⟨h1, h2, h3, h4, h5⟩ := C39_known_accepted st.parameters st hc.1 hc.1
    (fun p hp => List.mem_map.2 ⟨p, hp, rfl⟩)
  have hattr : (setParamsDict st.parameters st).2.attrs = st.attrs := by
    funext k
    by_cases hk : k ∈ st.parameters.map (·.1)
    · obtain ⟨⟨k', w⟩, hp, rfl⟩ := List.mem_map.1 hk
      rw [(h2 k' w hp).1, hc.2 k' w hp]
    · exact (h3 k hk).1
  have hpar : (setParamsDict st.parameters st).2.parameters = st.parameters := by
    have hnd : ((setParamsDict st.parameters st).2.parameters.map (·.1)).Nodup := by
      rw [h4]; exact hc.1
    set d' := (setParamsDict st.parameters st).2.parameters
    apply List.ext_getElem?
    intro i
    have hki : (d'.map (·.1))[i]? = (st.parameters.map (·.1))[i]? := by rw [h4]
    simp only [List.getElem?_map] at hki
    cases ha : d'[i]? with
    | none =>
      rw [ha] at hki
      cases hb : st.parameters[i]? with
      | none => rfl
      | some q => simp [hb] at hki
    | some p =>
      rw [ha] at hki
      cases hb : st.parameters[i]? with
      | none => simp [hb] at hki
      | some q =>
        simp only [hb, Option.map_some, Option.some.injEq] at hki
        have hq : q ∈ st.parameters := List.mem_of_getElem? hb
        have hp : p ∈ d' := List.mem_of_getElem? ha
        have := (h2 q.1 q.2 hq).2
        have inj := List.inj_on_of_nodup_map hnd hp this (by simpa using hki)
        rw [inj]
  have : (setParamsDict st.parameters st).2 = st := by
    generalize (setParamsDict st.parameters st).2 = s at *
    cases s; cases st; simp_all
  exact Prod.ext h1 this

/-- C39: no value is validated again: whatever value is given for a known name is stored. -/
theorem C39_not_revalidated (st : ParamState V) (hnd : (st.parameters.map (·.1)).Nodup)
    (k : String) (v : V) (hk : k ∈ st.parameters.map (·.1)) :
    (setParamsDict [(k, v)] st).1 = .ok () ∧ (setParamsDict [(k, v)] st).2.attrs k = some v := by
  obtain ⟨h1, h2, _⟩ := C39_known_accepted [(k, v)] st (by simp) hnd
    (fun p hp => by simp at hp; subst hp; exact hk)
  exact ⟨h1, (h2 k v (by simp)).1⟩

/-- an optimizer with the two parameters epoch and pop_size -/
def exParams : ParamState Int :=
  (setParamsList ["epoch", "pop_size"]
    ⟨fun n => if n = "epoch" then some 100 else if n = "pop_size" then some 50 else none, [], none⟩).2

example : Spec.Consistent exParams ∧ exParams.parameters = [("epoch", 100), ("pop_size", 50)] := by
  refine ⟨(C39_list ["epoch", "pop_size"] _ (by intro n hn; simp at hn; rcases hn with rfl | rfl <;> simp)).2.2.1,
    by decide +kernel⟩

end C39

/-! ## C40 -/

namespace Spec
/-- the documented meaning of a range: a tuple excludes, a list includes its end points; an infinite
end point means no limit on that side -/
def InRange (x : Ext) : Bound → Prop
  | .tuple lo hi => (lo = .ninf ∨ lo.lt x = true) ∧ (hi = .pinf ∨ x.lt hi = true)
  | .list lo hi => (lo = .ninf ∨ lo.le x = true) ∧ (hi = .pinf ∨ x.le hi = true)
end Spec

/-- C40: `is_in_bound` decides exactly the documented range. -/
theorem C40_is_in_bound (x : Ext) (b : Bound) : isInBound x b = true ↔ Spec.InRange x b := by
  cases b with
  | tuple lo hi =>
    simp only [isInBound, Bound.lo, Bound.hi, Bound.ops, Spec.InRange]
    by_cases h1 : lo = .ninf <;> by_cases h2 : hi = .pinf <;>
      simp [h1, h2] <;> cases h3 : Ext.lt x hi <;> tauto
  | list lo hi =>
    simp only [isInBound, Bound.lo, Bound.hi, Bound.ops, Spec.InRange]
    by_cases h1 : lo = .ninf <;> by_cases h2 : hi = .pinf <;>
      simp [h1, h2] <;> cases h3 : Ext.le x hi <;> tauto

/-- C40: on ordinary finite numbers the range test is the ordinary comparison. -/
theorem C40_finite (q l u : ℚ) :
    (isInBound (.fin q) (.list (.fin l) (.fin u)) = true ↔ l ≤ q ∧ q ≤ u)
    ∧ (isInBound (.fin q) (.tuple (.fin l) (.fin u)) = true ↔ l < q ∧ q < u)
    ∧ (isInBound (.fin q) (.list (.fin l) .pinf) = true ↔ l ≤ q)
    ∧ (isInBound (.fin q) (.tuple .ninf (.fin u)) = true ↔ q < u) := by
  refine ⟨?_, ?_, ?_, ?_⟩ <;> rw [C40_is_in_bound] <;> simp [Spec.InRange, Ext.le, Ext.lt]

/-- C40: NaN is inside no range with a finite end point. -/
theorem C40_nan (b : Bound) :
    isInBound .nan b = true ↔ (b.lo = .ninf ∧ b.hi = .pinf) := by
  rw [C40_is_in_bound]
  cases b with
  | tuple lo hi => cases lo <;> cases hi <;> simp [Spec.InRange, Bound.lo, Bound.hi, Ext.lt]
  | list lo hi => cases lo <;> cases hi <;> simp [Spec.InRange, Bound.lo, Bound.hi, Ext.le]

/-- C40: `check_float` accepts exactly the numbers in the range and returns them unchanged. -/
theorem C40_check_float (v : PyVal) (b : Bound) (y : Ext) :
    checkFloat v (some b) = .ok y ↔ v.number = some y ∧ Spec.InRange y b := by
  unfold checkFloat
  cases hv : v.number with
  | none => simp
  | some x =>
    simp only [Option.some.injEq, ← C40_is_in_bound]
    by_cases hb : isInBound x b = true
    · simp only [hb, if_true, Except.ok.injEq]
      constructor
      · rintro rfl; exact ⟨rfl, hb⟩
      · exact fun h => h.1
    · simp only [hb, if_false, reduceCtorEq, false_iff, not_and]
      rintro rfl; exact hb

/-- C40: `check_int` accepts exactly the finite numbers in the range and truncates them. -/
theorem C40_check_int (v : PyVal) (b : Bound) (z : Int) :
    checkInt v (some b) = .ok z ↔
      ∃ q : ℚ, v.number = some (.fin q) ∧ Spec.InRange (.fin q) b
        ∧ z = if 0 ≤ q then ⌊q⌋ else ⌈q⌉ := by
  unfold checkInt
  cases hv : v.number with
  | none => simp
  | some x =>
    simp only [Option.some.injEq, ← C40_is_in_bound]
    by_cases hb : isInBound x b = true
    · simp only [hb, if_true]
      cases x with
      | fin q =>
        simp only [pyInt, Except.ok.injEq, Ext.fin.injEq]
        constructor
        · rintro rfl; exact ⟨q, rfl, hb, rfl⟩
        · rintro ⟨q', rfl, _, h⟩; exact h.symm
      | _ => simp [pyInt]
    · simp only [hb, if_false, reduceCtorEq, false_iff]
      rintro ⟨q, rfl, h, _⟩
      exact hb h

/-- C40: with closed integer bounds the int returned is inside them. -/
theorem C40_check_int_closed (v : PyVal) (l u z : Int)
    (h : checkInt v (some (.list (.fin l) (.fin u))) = .ok z) : l ≤ z ∧ z ≤ u :=
  checkInt_closed_int h

/-- C40: with open bounds the int returned may be an excluded end point. -/
theorem C40_check_int_open_escapes :
    ∃ (v : PyVal) (z : Int), checkInt v (some (.tuple (.fin 0) (.fin 10))) = .ok z ∧ ¬ (0 < z) :=
  ⟨.float (.fin (1 / 2)), 0, by decide +kernel, by decide⟩

/-- C40: `check_str` and `check_bool` accept members only, unchanged. -/
theorem C40_check_str_bool (v : PyVal) (l : List String) (s : String) (bl : List Bool) (b : Bool) :
    (checkStr v (some l) = .ok s ↔ v = .str s ∧ s ∈ l)
    ∧ (checkBool v bl = .ok b ↔ v = .bool b ∧ b ∈ bl) := by
  constructor
  · cases v <;> simp [checkStr]
    rename_i t
    by_cases h : t ∈ l
    · simp only [h, if_true, Except.ok.injEq]
      constructor
      · rintro rfl; exact ⟨rfl, h⟩
      · exact fun h => h.1
    · simp only [h, if_false, reduceCtorEq, false_iff, not_and]
      rintro rfl; exact h
  · cases v <;> simp [checkBool]
    rename_i t
    by_cases h : t ∈ bl
    · simp only [h, if_true, Except.ok.injEq]
      constructor
      · rintro rfl; exact ⟨rfl, h⟩
      · exact fun h => h.1
    · simp only [h, if_false, reduceCtorEq, false_iff, not_and]
      rintro rfl; exact h

theorem zip_all {num : PyVal → Option Ext} (vs : List PyVal) (bs : List Bound)
    (hlen : bs.length = vs.length) :
    ((List.zipWith (fun v b => match num v with
        | some x => isInBound x b | Option.none => false) vs bs).all id = true)
      ↔ ∀ (i : Nat) (v : PyVal) (b : Bound), vs[i]? = some v → bs[i]? = some b →
          ∃ x, num v = some x ∧ Spec.InRange x b := by
  induction vs generalizing bs with
  | nil => cases bs <;> simp_all
  | cons v vs ih =>
    cases bs with
    | nil => simp at hlen
    | cons b bs =>
      simp only [List.length_cons, Nat.add_right_cancel_iff] at hlen
      simp only [List.zipWith_cons_cons, List.all_cons, id, Bool.and_eq_true]
      rw [ih bs hlen]
      have hd : (match num v with | some x => isInBound x b | Option.none => false) = true
          ↔ ∃ x, num v = some x ∧ Spec.InRange x b := by
        cases num v <;> simp [C40_is_in_bound]
      rw [hd]
      constructor
      · rintro ⟨h1, h2⟩ i v' b' hv hb
        cases i with
        | zero => simp at hv hb; subst hv; subst hb; exact h1
        | succ i => exact h2 i v' b' (by simpa using hv) (by simpa using hb)
      · intro h
        exact ⟨h 0 v b rfl rfl, fun i v' b' hv hb => h (i + 1) v' b' (by simpa using hv) (by simpa using hb)⟩

/-- C40: the sequence checks, when as many ranges as values are given: at least two numbers, each
in its own range. -/
theorem C40_check_tuple (num : PyVal → Option Ext) (vs : List PyVal) (bs : List Bound)
    (hlen : bs.length = vs.length) (r : List PyVal) :
    checkTuple num (some vs) (some bs) = .ok r ↔
      r = vs ∧ 2 ≤ vs.length ∧
      ∀ (i : Nat) (v : PyVal) (b : Bound), vs[i]? = some v → bs[i]? = some b →
        ∃ x, num v = some x ∧ Spec.InRange x b := by
  have hz := zip_all (num := num) vs bs hlen
  unfold checkTuple
  simp only [hlen, if_true]
  by_cases h1 : vs.length > 1
  · simp only [h1, if_true]
    by_cases h2 : vs.all (fun v => (num v).isSome) = true
    · simp only [h2, if_true]
      split
      · rename_i h3
        simp only [Except.ok.injEq]
        constructor
        · rintro rfl; exact ⟨rfl, h1, hz.1 h3⟩
        · exact fun h => h.1.symm
      · rename_i h3
        simp only [reduceCtorEq, false_iff, not_and]
        intro _ _ hh
        exact h3 (hz.2 hh)
    · simp only [h2, if_false, reduceCtorEq, false_iff, not_and]
      intro _ _ hh
      apply h2
      rw [List.all_eq_true]
      intro v hv
      obtain ⟨i, hi⟩ := List.mem_iff_getElem?.1 hv
      have hlt : i < bs.length := by
        rw [hlen]; exact (List.getElem?_eq_some_iff.1 hi).1
      obtain ⟨x, hx, _⟩ := hh i v _ hi (List.getElem?_eq_getElem hlt)
      simp [hx]
  · simp only [h1, if_false, reduceCtorEq, false_iff, not_and]
    intro _ h; omega

/-- C40: when the number of ranges differs from the number of values the range check is skipped:
any two or more numbers pass. -/
theorem C40_check_tuple_skips (num : PyVal → Option Ext) (vs : List PyVal) (bs : List Bound)
    (hlen : bs.length ≠ vs.length) (h2 : 2 ≤ vs.length) (hn : ∀ v ∈ vs, (num v).isSome) :
    checkTuple num (some vs) (some bs) = .ok vs := by
  unfold checkTuple
  simp only [hlen, if_false]
  rw [if_pos (by omega), if_pos (by rw [List.all_eq_true]; exact hn)]

/-- a wildly out-of-range pair passes because one range is given for two values -/
example : checkTupleInt (some [.int 500, .int (-7)]) (some [.list (.fin 1) (.fin 3)])
    = .ok [.int 500, .int (-7)] :=
  C40_check_tuple_skips _ _ _ (by decide) (by decide) (by decide)

/-- C40: `check_is_int_and_float` and `check_list_tuple`. -/
theorem C40_others {α : Type} (l : Option (List α)) (r : List α) (v w : PyVal) (bi bf : Bound) :
    (checkListTuple l = .ok r ↔ l = some r ∧ r ≠ [])
    ∧ (checkIsIntAndFloat v (some bi) (some bf) = .ok w ↔
        v = w ∧ ((∃ z : Int, v = .int z ∧ Spec.InRange (.fin z) bi)
          ∨ (∃ x, v = .float x ∧ Spec.InRange x bf))) := by
  constructor
  · cases l with
    | none => simp [checkListTuple]
    | some l =>
      cases l with
      | nil => simp [checkListTuple]
      | cons a l =>
        simp only [checkListTuple, List.length_cons, ge_iff_le, Nat.le_add_left, if_true,
          Except.ok.injEq, Option.some.injEq]
        constructor
        · rintro rfl; exact ⟨rfl, by simp⟩
        · exact fun h => h.1
  · cases v with
    | int z =>
      simp only [checkIsIntAndFloat, ← C40_is_in_bound]
      by_cases h : isInBound (.fin z) bi = true <;> simp [h]
    | float x =>
      simp only [checkIsIntAndFloat, ← C40_is_in_bound]
      by_cases h : isInBound x bf = true <;> simp [h]
    | _ => simp [checkIsIntAndFloat]

/-! ## C41 -/

/-- C41: an unknown mode (or a mode that is not a string) raises ValueError. -/
theorem C41_unknown_mode (mode w : PyVal) (par : Bool) (cpu : Int) (old : Option Int)
    (h : ∀ m : Mode, mode ≠ .str m.name) :
    checkModeAndWorkers mode w par cpu old = .error .value := by
  have : checkStr mode (some (Mode.all.map Mode.name)) = .error .value := by
    cases mode <;> simp [checkStr]
    rename_i s
    intro m _ hs
    exact h m (by rw [hs])
  simp [checkModeAndWorkers, this, bind, Except.bind]

theorem checkModeAndWorkers_eq (m : Mode) (w : PyVal) (par : Bool) (cpu : Int) (old : Option Int) :
    checkModeAndWorkers (.str m.name) w par cpu old =
      if m = .process || m = .thread then
        if !par then .ok (.single, old)
        else if w ≠ .none then
          if m = .process then
            (checkInt w (some (cpuBound 2 (min 61 (cpu - 1))))).map (fun z => (m, some z))
          else (checkInt w (some (cpuBound 2 (min 32 (cpu + 4))))).map (fun z => (m, some z))
        else .ok (m, some 4)
      else .ok (m, old) := by
  have h1 : checkStr (.str m.name) (some (Mode.all.map Mode.name)) = .ok m.name := by
    cases m <;> rfl
  have h2 : (Mode.ofString m.name).getD .single = m := by cases m <;> decide
  unfold checkModeAndWorkers
  rw [h1]
  simp only [bind, Except.bind, h2]
  split
  · split
    · rfl
    · split
      · split
        · cases checkInt w (some (cpuBound 2 (min 61 (cpu - 1)))) <;> rfl
        · cases checkInt w (some (cpuBound 2 (min 32 (cpu + 4)))) <;> rfl
      · rfl
  · rfl

/-- C41: on success the mode is the requested one, except that a parallel mode of an optimizer that
cannot run in parallel becomes `single`; in the parallel modes the number of workers is the default
4 or within the allowed range; otherwise it is left alone. -/
theorem C41_mode_and_workers (m : Mode) (w : PyVal) (par : Bool) (cpu : Int) (old : Option Int)
    (m' : Mode) (w' : Option Int) (h : checkModeAndWorkers (.str m.name) w par cpu old = .ok (m', w')) :
    (m' = if (m = .process ∨ m = .thread) ∧ par = false then .single else m)
    ∧ (m' = .process → (w = .none ∧ w' = some 4) ∨
        ∃ z, w' = some z ∧ 2 ≤ z ∧ z ≤ min 61 (cpu - 1))
    ∧ (m' = .thread → (w = .none ∧ w' = some 4) ∨
        ∃ z, w' = some z ∧ 2 ≤ z ∧ z ≤ min 32 (cpu + 4))
    ∧ (m' ≠ .process → m' ≠ .thread → w' = old) := by
  rw [checkModeAndWorkers_eq] at h
  cases m <;> simp at h
  case swarm => obtain ⟨rfl, rfl⟩ := h; simp
  case single => obtain ⟨rfl, rfl⟩ := h; simp
  case process =>
    cases par
    · simp at h; obtain ⟨rfl, rfl⟩ := h; simp
    · simp at h
      split at h
      · rename_i hw
        simp at h; obtain ⟨rfl, rfl⟩ := h; simp [hw]
      · cases hc : checkInt w (some (cpuBound 2 (min 61 (cpu - 1)))) with
        | error e => simp [hc, Except.map] at h
        | ok z =>
          simp [hc, Except.map] at h
          obtain ⟨rfl, rfl⟩ := h
          have := checkInt_closed_int hc
          simp
          right; omega
  case thread =>
    cases par
    · simp at h; obtain ⟨rfl, rfl⟩ := h; simp
    · simp at h
      split at h
      · rename_i hw
        simp at h; obtain ⟨rfl, rfl⟩ := h; simp [hw]
      · cases hc : checkInt w (some (cpuBound 2 (min 32 (cpu + 4)))) with
        | error e => simp [hc, Except.map] at h
        | ok z =>
          simp [hc, Except.map] at h
          obtain ⟨rfl, rfl⟩ := h
          have := checkInt_closed_int hc
          simp
          right; omega

/-- C41: on a machine with at most two cores every explicit `n_workers` is rejected in process
mode (the allowed range is empty). -/
theorem C41_small_machine (w : PyVal) (cpu : Int) (old : Option Int) (hcpu : cpu ≤ 2)
    (hw : w ≠ .none) (hfin : ∀ z, w.number = some z → ∃ q, z = .fin q) :
    checkModeAndWorkers (.str "process") w true cpu old = .error .value := by
  have := checkModeAndWorkers_eq .process w true cpu old
  rw [show Mode.name .process = "process" from rfl] at this
  rw [this]
  simp [hw]
  unfold checkInt
  cases hv : w.number with
  | none => simp [Except.map]
  | some x =>
    obtain ⟨q, rfl⟩ := hfin x hv
    have : isInBound (.fin q) (cpuBound 2 (min 61 (cpu - 1))) = false := by
      rw [Bool.eq_false_iff]
      intro hb
      rw [cpuBound, (C40_finite q _ _).1] at hb
      have h1 : ((min 61 (cpu - 1) : Int) : ℚ) ≤ 1 := by exact_mod_cast (by omega)
      have h2 := hb.1
      norm_num at h2
      linarith [hb.2]
    simp [this, Except.map]

/-- concrete outcomes on a machine with 8 cores -/
example : checkModeAndWorkers (.str "thread") (.int 12) true 8 none = .ok (.thread, some 12)
    ∧ checkModeAndWorkers (.str "thread") (.int 13) true 8 none = .error .value
    ∧ checkModeAndWorkers (.str "process") .none false 8 none = .ok (.single, none)
    ∧ checkModeAndWorkers (.str "swarm") (.int 99) true 8 (some 3) = .ok (.swarm, some 3) := by
  refine ⟨?_, ?_, ?_, ?_⟩ <;> decide +kernel

end Mealpy
