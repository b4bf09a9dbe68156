import Verif.Model.BocpdReg

/-!
# `kats/detectors/bocpd.py`: the priors (`_choose_priors`, empirical priors) and `BOCPDetector.detector`

Numbers are elements of a field; a series without any variation, for which the code has an infinite precision, is outside.
What the search library proposes, the sort of `pandas` and the detection itself are parameters.  Priors that are given are one number for all series.  Messages are left out.
-/

namespace Kats

section
variable {K : Type} [Field K] [LinearOrder K]

/-- `BOCPDModelType` (66-74). -/
inductive BcKind where
  | normal | trend | poisson
deriving DecidableEq, Repr

/-- The classes of parameters (126-255): `kind` is the class; `alpha` and `beta` are read for `PoissonModelParameters` only,
`trend` for `TrendChangeParameters` only and the next five for `NormalKnownParameters` only.  `data` says whether it is set. -/
structure BcParams (K : Type) where
  kind : BcKind
  data : Bool
  choice : List (String × List K)
  cpPrior : K
  method : String
  empirical : Bool
  mean : Option K
  meanPrec : Option K
  knownPrec : Option K
  multiplier : K
  trend : BlrArgs K
  alpha : K
  beta : K

/-- The defaults (140-147, 185-196, 236-240, 254-255). -/
def bcDefault (kind : BcKind) : BcParams K where
  kind := kind
  data := false
  choice := (if kind = .normal then [("known_prec_multiplier", [1, 2, 3, 4, 5])] else [])
    ++ [("cp_prior", [1 / 1000, 2 / 1000, 5 / 1000, 1 / 100, 2 / 100])]
  cpPrior := 1 / 10
  method := "random"
  empirical := true
  mean := none
  meanPrec := none
  knownPrec := none
  multiplier := 1
  trend := ⟨none, 100, 10, false⟩
  alpha := 1
  beta := 1 / 20

/-- A dictionary of parameters. -/
abbrev BcArm (K : Type) := String → Option K

/-- `set_prior` (149-162 and 198-215). -/
def bcSet (p : BcParams K) (arm : BcArm K) : BcParams K :=
  { p with
    multiplier := if p.kind = .normal then (arm "known_prec_multiplier").getD p.multiplier else p.multiplier
    cpPrior := (arm "cp_prior").getD p.cpPrior }

/-! ## The predictive models -/

/-- `mean`. -/
def bcMean (l : List K) : K := l.sum / (l.length : K)

/-- `var` of `pandas`, with one degree of freedom less. -/
def bcVar (l : List K) : K := (l.map fun v => (v - bcMean l) * (v - bcMean l)).sum / ((l.length : K) - 1)

/-- `rolling(10).var()[9:]`. -/
def bcWindows (l : List K) : List K := (List.range (l.length + 1 - 10)).map fun i => bcVar ((l.drop i).take 10)

/-- A predictive model: mean, precision and known precision for each series, the regression with its prior, or the two
parameters of the Gamma distribution. -/
inductive BcModel (K : Type) where
  | normal (pr : List (K × K × K))
  | trend (a : BlrArgs K) (pr : BlrPrior K)
  | poisson (alpha beta : K)

/-- `_NormalKnownPrec.__init__` (1222-1293) with `check_data` (1143-1162) and `_find_empirical_prior` (1299-1337); `cols` has the values of
each series. -/
def bcNormal (p : BcParams K) (cols : List (List K)) : Except Err (BcModel K) :=
  if p.empirical then
    if (cols.headD []).length < 10 then .error .valueError
    else .ok (.normal (cols.map fun l => (bcMean l, 1 / bcVar l, p.multiplier / bcMean (bcWindows l))))
  else match p.mean, p.meanPrec, p.knownPrec with
    | some m, some q, some k => .ok (.normal (cols.map fun _ => (m, q, k)))
    | _, _, _ => .error .valueError

/-- `self.models[model](data, parameters)` (408-414, 597-603). -/
def bcMake (p : BcParams K) (cols : List (List K)) : Except Err (BcModel K) :=
  match p.kind with
  | .normal => bcNormal p cols
  | .trend => .ok (.trend p.trend blrInit)
  | .poisson => .ok (.poisson p.alpha p.beta)

/-- `underlying_model.setup()` (415): for the regression, see `blrSetup`; nothing for the others (1295-1297, 1843-1845). -/
def bcSetup (m : BcModel K) (cols : List (List K)) : Except Err (BcModel K) :=
  match m with
  | .trend a _ => do
    let pr ← blrSetup a (cols.headD [])
    return .trend a pr
  | m => .ok m

/-- Whether the run over the data gets through: with two points or more, the regression fails without a prior for the line
(`C158_unset_violated`). -/
def bcRuns (m : BcModel K) (cols : List (List K)) : Bool :=
  match m with
  | .trend _ pr => pr.mu.isSome || decide ((cols.headD []).length < 2)
  | _ => true

/-! ## The choice of the priors -/

/-- The objective function (591-612): the parameters are set, the model is made and the data are run through; `score` is the
posterior predictive, NaN is `none`. -/
def bcEval (score : BcModel K → K → Option K) (cols : List (List K)) (p : BcParams K) (arm : BcArm K) : BcParams K × Except Err (Option K) :=
  match arm "cp_prior" with
  | none => (p, .error .keyError)
  | some c =>
    let p := bcSet p arm
    match bcMake p cols with
    | .error e => (p, .error e)
    | .ok m => if bcRuns m cols then (p, .ok (score m c)) else (p, .error .otherError)

/-- One round of the search (`generate_evaluate_new_parameter_values`): the rows, or nothing if an evaluation fails. -/
def bcRound (score : BcModel K → K → Option K) (cols : List (List K)) : BcParams K → List (BcArm K) → BcParams K × Option (List (BcArm K × Option K))
  | p, [] => (p, some [])
  | p, arm :: l =>
    let r := bcEval score cols p arm
    match r.2 with
    | .error _ => (r.1, none)
    | .ok v =>
      let q := bcRound score cols r.1 l
      (q.1, q.2.map fun t => (arm, v) :: t)

/-- The rounds (566-569): a round that fails ends the search if the library is strict, and gives no rows otherwise. -/
def bcRounds (score : BcModel K → K → Option K) (cols : List (List K)) (strict : Bool) :
    BcParams K → List (List (BcArm K)) → BcParams K × Except Err (List (BcArm K × Option K))
  | p, [] => (p, .ok [])
  | p, arms :: l =>
    let r := bcRound score cols p arms
    if strict && r.2.isNone then (r.1, .error .otherError)
    else
      let q := bcRounds score cols strict r.1 l
      (q.1, match q.2 with | .error e => .error e | .ok t => .ok (r.2.getD [] ++ t))

/-- What comes from outside: the arms proposed for the choices in a number of rounds, whether the library is strict, and
`sort_values(by="mean", ascending=False)`. -/
structure BcSearch (K : Type) where
  propose : List (String × List K) → String → Nat → List (List (BcArm K))
  strict : Bool
  sort : List (BcArm K × Option K) → List (BcArm K × Option K)

/-- The number of rounds (534-541). -/
def bcCount (method : String) : Except Err Nat :=
  if method = "random" then .ok 3 else if method = "gridsearch" then .ok 1 else .error .otherError

/-- `_choose_priors` (505-581): three rounds at random or one on the grid; the best row is taken. -/
def bcChoose (S : BcSearch K) (score : BcModel K → K → Option K) (cols : List (List K)) (p : BcParams K) : Except Err (K × BcParams K) := do
  let n ← bcCount p.method
  if p.choice = [] then .error .valueError
  else
    let r := bcRounds score cols S.strict p (S.propose p.choice p.method n)
    let t ← r.2
    match S.sort t with
    | [] => .error .indexError
    | b :: _ =>
      match b.1 "cp_prior" with
      | none => .error .keyError
      | some c => return (c, bcSet r.1 b.1)

/-! ## `detector` -/

/-- The arguments of `detector` (309-319) that are read here. -/
structure BcArgs (K : Type) where
  kind : BcKind
  params : Option (BcParams K)
  choose : Bool
  prior : K

/-- `detector` (377-429): the result of the run for the model and the prior, with the object of the parameters as it is left. -/
def bcDetector {R : Type} (S : BcSearch K) (score : BcModel K → K → Option K) (run : BcModel K → K → R) (cols : List (List K)) (a : BcArgs K) :
    Except Err (R × BcParams K) := do
  let p := a.params.getD (bcDefault a.kind)
  if p.kind ≠ a.kind then .error .otherError
  else do
    let c ← if a.choose then bcChoose S score cols p else Except.ok (a.prior, p)
    let p := { c.2 with data := true }
    if cols.length ≠ 1 ∧ a.kind ≠ .normal then .error .valueError
    else do
      let m ← bcMake p cols
      let m ← bcSetup m cols
      if bcRuns m cols then return (run m c.1, p) else .error .otherError

end

end Kats
