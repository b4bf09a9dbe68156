/-!
# Shared vocabulary: Python exceptions and slicing

Python semantics used by several modelled functions; no Kats code is modelled in this file.
-/

namespace Kats

/-- The exception classes that the modelled code raises. -/
inductive Err where
  /-- Python `ValueError` -/
  | valueError
  /-- Python `TypeError` -/
  | typeError
  /-- Python `NotImplementedError` -/
  | notImplemented
  /-- Python `AttributeError` -/
  | attributeError
  /-- Python `IndexError` -/
  | indexError
  /-- Python `KeyError` -/
  | keyError
  /-- Python `StopIteration` -/
  | stopIteration
  /-- a plain `Exception` or one of Kats' own exception classes (`kats/consts.py`, `InternalError`,
  `ParameterError`, ...) -/
  | otherError
deriving DecidableEq, Repr

/-- CPython's clamping of one slice bound `i` for a sequence of length `n`
(`PySlice_AdjustIndices` with step 1): negative bounds count from the end. -/
def pyIdx (n : Nat) (i : Int) : Nat :=
  if i < 0 then ((n : Int) + i).toNat else min i.toNat n

/-- Python / pandas positional slice `xs[i:j]` with step 1. -/
def pySlice {α : Type} (xs : List α) (i j : Int) : List α :=
  (xs.take (pyIdx xs.length j)).drop (pyIdx xs.length i)

/-- `xs[i:]` -/
def pyFrom {α : Type} (xs : List α) (i : Int) : List α :=
  xs.drop (pyIdx xs.length i)

/-- `xs[:j]` -/
def pyTo {α : Type} (xs : List α) (j : Int) : List α :=
  xs.take (pyIdx xs.length j)

/-- `np.nanmean`: mean of the non-NaN entries, NaN if there are none. -/
def nanmean (l : List (Option Rat)) : Option Rat :=
  let v := l.filterMap id
  if v.isEmpty then none else some (v.sum / v.length)

end Kats
