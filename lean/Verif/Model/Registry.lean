import Verif.Model.Py

/-!
# `kats/detectors/detector.py`: `DetectorModelRegistry`

A class is its name, the attributes of its own body and those of the classes after it in the order of
resolution, each with the flag `__isabstractmethod__`.  The bases are classes of the registry, `ABC` or
`object`.  `InternalError` is `otherError`.
-/

namespace Kats

/-- A class. -/
structure RgClass where
  name : String
  own : List (String × Bool)
  up : List (List (String × Bool)) := []
  deriving DecidableEq

/-- `inspect.isabstract(new_cls)` (56).  The class was made by `type.__new__` (54), not by
`ABCMeta.__new__`, so that neither the flag of the type nor `__abstractmethods__` is set, for none of the
classes of the registry; what is left is the search in the own body. -/
def rgIsAbstract (c : RgClass) : Bool := c.own.any (·.2)

/-- Assignment to a dictionary. -/
def rgSet (reg : List (String × RgClass)) (n : String) (c : RgClass) : List (String × RgClass) :=
  match reg with
  | [] => [(n, c)]
  | e :: es => if e.1 = n then (n, c) :: es else e :: rgSet es n c

/-- `__new__` (50-62): what becomes of `REGISTRY` when a class is defined. -/
def rgNew (reg : List (String × RgClass)) (c : RgClass) : List (String × RgClass) :=
  if rgIsAbstract c then reg else rgSet reg c.name c

/-- `REGISTRY` after classes were defined one after the other; `get_registry` (64-67) is a copy. -/
def rgRegistry (cs : List RgClass) : List (String × RgClass) := cs.foldl rgNew []

/-- `get_detector_model_by_name` (69-79). -/
def rgByName (reg : List (String × RgClass)) (n : String) : Except Err RgClass :=
  match reg.find? fun e => e.1 == n with
  | some e => .ok e.2
  | none => .error .otherError

end Kats
