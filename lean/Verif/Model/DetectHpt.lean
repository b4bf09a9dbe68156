import Verif.Model.MetaHpt
import Verif.Model.GmPredict

/-!
# `kats/detectors/meta_learning/hpt_tuning.py`

`MetaDetectHptSelect`, without plots; `get_ts_features` (45-62) is a parameter, `metadata_detect_reader` is in
`MetaDetect`.  Whether a detector can be made with some parameters is a parameter too; `hp.to_dict()` has the values as
they are in the frame, where pandas may turn whole numbers into floats.  The columns of `data_y` have different names.
-/

namespace Kats

section
variable {V K : Type} [DecidableEq V] [Field K] [LinearOrder K]

/-- The attributes. -/
structure Dh (V K : Type) where
  x : List String × List (List (Option K))
  y : List (String × List (Option V))
  const : List (String × Option V)
  model : Option (HpObj V K)

/-- A row of the parameters, `hp.to_dict()` (179). -/
def dhRow (fy : List (String × List (Option V))) (i : Nat) : List (String × Option V) := fy.map fun e => (e.1, e.2.getD i none)

/-- `hpt_to_remove` (192-198). -/
def dhRemoved : List String := ["threshold_low", "threshold_high", "detection_window_sec", "fraction", "direction_1d"]

/-- `_check_valid_input` (171-183) with `_init_detection_model` (186-204); `mk` tells whether the detector can be made. -/
def dhCheck (mk : List (String × Option V) → Bool) (rows : Nat) (fy : List (String × List (Option V))) : Except Err Unit :=
  if (List.range rows).all fun i => mk ((dhRow fy i).filter fun e => decide (e.1 ∉ dhRemoved)) then .ok () else .error .otherError

/-- `get_const_params` (207-216): the first value of each column with one value. -/
def dhConst (fy : List (String × List (Option V))) : List (String × Option V) :=
  (fy.filter fun e => decide ((hpDistinct e.2).length = 1)).map fun e => (e.1, e.2.head?.join)

/-- `__init__` (144-168); `rows` is the number of rows of `data_y`. -/
def dhInit (mk : List (String × Option V) → Bool) (fx : List String × List (List (Option K))) (rows : Nat) (fy : List (String × List (Option V))) :
    Except Err (Dh V K) := do
  dhCheck mk rows fy
  let c := dhConst fy
  return { x := fx, y := fy.filter fun e => decide (e.1 ∉ c.map (·.1)), const := c, model := none }

/-- `NNParams` (110-118): whether to scale, and the arguments of `train`. -/
def dhParams : Bool × HpTrain K := (false, ⟨1, 1000, 128, "SGD", 1 / 10, some 20⟩)

/-- `train` (218-294). -/
def dhTrain {S : Type} (sort : List V → List V) (std : List K → K) (init : List Nat → Nat → Nat → HpLayer K) (num : Option V → Except Err K)
    (ce : List K → Nat → K) (opt : String → S) (step : S → HpNet K → List (HpRow K) → S × HpNet K) (perm : List Nat) (perms : Nat → List Nat) (o : Dh V K)
    (numIdx catIdx : List String) (shared : List Nat) (cats : List (List Nat)) (nums : List Nat) (params : Option (Bool × HpTrain K)) : Except Err (Dh V K) :=
  if numIdx.any fun n => decide (n ∈ o.const.map (·.1)) then .error .valueError
  else if catIdx.any fun n => decide (n ∈ o.const.map (·.1)) then .error .valueError
  else
    let cats := if cats.length ≠ catIdx.length then List.replicate catIdx.length [5] else cats
    let p := params.getD dhParams
    do
      let s ← hpInit sort std ⟨some o.x, some o.y, some catIdx, some numIdx, none, p.1, false⟩
      match s with
      | none => .error .attributeError
      | some s => do
        let net ← hpBuild init s (some shared) (some cats) (some nums)
        match hpTrain num ce opt step perm perms (some (s, some net, [])) p.2 with
        | .error _ => .error .otherError
        | .ok obj => return { o with model := some obj }

/-- `get_hpt_from_features` (307-319), the rows of the frame. -/
def dhFromFeatures (o : Dh V K) (x : HpInput K) : Except Err (List (List (String × (Option V ⊕ K)))) :=
  match o.model with
  | none => .error .otherError
  | some obj => do
    let ans ← hpPredBy obj x
    return ans.map fun d => gmUpdate (d.map fun e => (e.1, Sum.map some id e.2)) (o.const.map fun e => (e.1, Sum.inl e.2))

/-- `get_hpt_from_ts` (302-305): the array of a view of a dictionary is one object, for which `np.isnan` is a
`TypeError`. -/
def dhFromTs (features : List GmFlt → Except Err (List (String × Option K))) (o : Dh V K) (values : List GmFlt) :
    Except Err (List (List (String × (Option V ⊕ K)))) := do
  let _ ← features values
  match o.model with
  | none => .error .otherError
  | some obj => do
    let _ ← hpModel obj
    .error .typeError

end

end Kats
