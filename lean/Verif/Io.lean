/-!
# `mealpy/utils/io.py`

A file system maps names to file contents; `pickle` is a pair of functions.
-/

namespace Mealpy.Io

/-- a path is a sequence of characters -/
abbrev Path := List Char

/-- `".pkl"` -/
def pkl : Path := ['.', 'p', 'k', 'l']

/-- `s[-4:]`: the last four characters, or all of a shorter string -/
def last4 (p : Path) : Path := p.drop (p.length - 4)

/-- the name both functions compute (`mealpy/utils/io.py:11-15` and `mealpy/utils/io.py:20-24`) -/
def resolve : Option Path → Path
  | none => ['m', 'o', 'd', 'e', 'l', '.', 'p', 'k', 'l']
  | some p => if last4 p ≠ pkl then p ++ pkl else p

variable {Model Bytes : Type}

/-- files by name -/
abbrev FS (Bytes : Type) := Path → Option Bytes

/-- `save_model` (`mealpy/utils/io.py:10-16`): `open(.., 'wb')` replaces the file -/
def saveModel (dump : Model → Bytes) (fs : FS Bytes) (m : Model) (path : Option Path) : FS Bytes :=
  let name := match path with
    | none => ['m', 'o', 'd', 'e', 'l', '.', 'p', 'k', 'l']
    | some p => if last4 p ≠ pkl then p ++ pkl else p
  fun q => if q = name then some (dump m) else fs q

/-- `load_model` (`mealpy/utils/io.py:19-25`); `none` is `FileNotFoundError` -/
def loadModel (load : Bytes → Model) (fs : FS Bytes) (path : Option Path) : Option Model :=
  let name := match path with
    | none => ['m', 'o', 'd', 'e', 'l', '.', 'p', 'k', 'l']
    | some p => if last4 p ≠ pkl then p ++ pkl else p
  (fs name).map load

end Mealpy.Io
