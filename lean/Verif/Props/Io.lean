import Verif.Io

/-! # C48: `save_model` and `load_model` agree on the file name -/

namespace Mealpy
open Io

variable {Model Bytes : Type}

theorem Io.last4_append (p : Path) : last4 (p ++ pkl) = pkl := by
  unfold last4
  simp [pkl]

/-- C48: whatever the path, and whatever files exist, loading from the path a model was saved to returns
that model (for a `pickle` that round-trips). -/
theorem C48_load_after_save (dump : Model → Bytes) (load : Bytes → Model) (hp : ∀ m, load (dump m) = m)
    (fs : FS Bytes) (m : Model) (path : Option Path) :
    loadModel load (saveModel dump fs m path) path = some m := by
  unfold loadModel saveModel
  simp [hp]

/-- C48: exactly one file changes, its name ends in `.pkl` and is the path or the path followed by
`.pkl` (`model.pkl` without a path). -/
theorem C48_file_written (dump : Model → Bytes) (fs : FS Bytes) (m : Model) (path : Option Path) :
    ∃ name, saveModel dump fs m path name = some (dump m) ∧ (∀ q, q ≠ name → saveModel dump fs m path q = fs q) ∧
      pkl <:+ name ∧ (∀ p, path = some p → name = p ∨ name = p ++ pkl) := by
  refine ⟨resolve path, ?_, ?_, ?_, ?_⟩
  · cases path <;> simp [saveModel, resolve]
  · intro q hq
    cases path <;> simp_all [saveModel, resolve]
  · cases path with
    | none => exact ⟨['m', 'o', 'd', 'e', 'l'], rfl⟩
    | some p =>
      unfold resolve
      dsimp only
      split
      · exact ⟨p, rfl⟩
      · rename_i h
        replace h := Decidable.not_not.1 h
        refine ⟨p.take (p.length - 4), ?_⟩
        rw [← h]
        exact List.take_append_drop _ _
  · rintro p rfl
    unfold resolve
    dsimp only
    split
    · exact .inr rfl
    · exact .inl rfl

/-- C48: adding the suffix by hand names the same file, unless the path already had it. -/
theorem C48_suffix_optional (dump : Model → Bytes) (load : Bytes → Model) (hp : ∀ m, load (dump m) = m)
    (fs : FS Bytes) (m : Model) (p : Path) (h : ¬ pkl <:+ p) :
    loadModel load (saveModel dump fs m (some p)) (some (p ++ pkl)) = some m ∧
    loadModel load (saveModel dump fs m (some (p ++ pkl))) (some p) = some m := by
  have hl : last4 p ≠ pkl := by
    intro he
    exact h ⟨p.take (p.length - 4), by rw [← he]; exact List.take_append_drop _ _⟩
  unfold loadModel saveModel
  simp [hl, Io.last4_append, hp]

/-- C48: a file saved under another resolved name is not touched. -/
theorem C48_other_files_untouched (dump : Model → Bytes) (load : Bytes → Model)
    (fs : FS Bytes) (m : Model) (p q : Path) (hp : ¬ pkl <:+ p) (hq : ¬ pkl <:+ q) (hne : p ≠ q) :
    loadModel load (saveModel dump fs m (some p)) (some q) = loadModel load fs (some q) := by
  have hl : ∀ p : Path, ¬ pkl <:+ p → last4 p ≠ pkl := by
    intro p h he
    exact h ⟨p.take (p.length - 4), by rw [← he]; exact List.take_append_drop _ _⟩
  unfold loadModel saveModel
  simp [hl p hp, hl q hq, hne.symm]

/-- a path with and a path without the suffix, and a short one -/
example : resolve (some ['a', '.', 'p', 'k', 'l']) = ['a', '.', 'p', 'k', 'l'] ∧
    resolve (some ['a', 'b', 'c', 'd', 'e']) = ['a', 'b', 'c', 'd', 'e', '.', 'p', 'k', 'l'] ∧
    resolve (some ['k', 'l']) = ['k', 'l', '.', 'p', 'k', 'l'] ∧ ¬ pkl <:+ (['k', 'l'] : Path) := by decide

end Mealpy
