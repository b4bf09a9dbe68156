import Verif.Model.Py

/-!
# `kats/utils/dataframe_utils.py`: `rename_columns_by_prefix`

A data frame is represented by its list of column names (14-92 looks at nothing else and pandas
copies the contents of each column along with its position).  `prefix_map` is the list of its items.
-/

namespace Kats

/-- Python `s.startswith(p)`. -/
def pyStartsWith (s p : String) : Bool := p.toList.isPrefixOf s.toList

/-- 70-72: the non-time columns that start with `prefix`. -/
def matchedCols (cols : List String) (timeCol pre : String) : List String :=
  cols.filter fun c => !decide (c = timeCol) && pyStartsWith c pre

/-- 68-90: one item after the other; `acc` is `rename_mapping` (whose keys are also those of
`matched_columns`). -/
def buildRename (cols : List String) (timeCol : String) :
    List (String × String) → List (String × String) → Except Err (List (String × String))
  | acc, [] => .ok acc
  | acc, (pre, new) :: rest =>
    match matchedCols cols timeCol pre with
    | [] => .error .valueError
    | [c] =>
      if acc.any (fun e => decide (e.1 = c)) then .error .valueError
      else buildRename cols timeCol (acc ++ [(c, new)]) rest
    | _ :: _ :: _ => .error .valueError

/-- `df.rename(columns=mapping)`: every column whose name is a key gets the mapped name. -/
def applyRename (mapping : List (String × String)) (c : String) : String :=
  match mapping.find? (fun e => decide (e.1 = c)) with
  | some e => e.2
  | none => c

/-- 14-92, `rename_columns_by_prefix`. -/
def renameByPrefix (cols : List String) (prefixMap : List (String × String))
    (timeCol : String := "time") : Except Err (List String) := do
  let m ← buildRename cols timeCol [] prefixMap
  return cols.map (applyRename m)

end Kats
