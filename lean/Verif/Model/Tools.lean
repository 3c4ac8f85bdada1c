import Verif.Model.Source
import Mathlib.Data.List.Infix
/-
Model of the log filter and the data directory lookup in `tokamak_neutron_source/tools.py`, and of
the selection of channels in `TokamakNeutronSource.plot`.
-/

set_option autoImplicit false

namespace TNS

/-! ### Log filter -/

/-- A log record: the logger (there are two, `tokamak_neutron_source.energy` and
`tokamak_neutron_source.energy_data`) and `str(record.msg)`. `tools.py` 309-314, 327-331. -/
structure LogRecord where
  logger : Bool
  msg : String
  deriving DecidableEq, Repr

/-- The state: the filter objects (by identity) attached to the two loggers, and the set `msgs` of
the filter object under consideration. `tools.py` 305-307. -/
structure LogState where
  filters : Bool → List ℕ
  msgs : List String

/-- `WarningFilter.filter` (`tools.py` 309-314): the result and the new `msgs`. -/
def filterCall (msgs : List String) (r : LogRecord) : Bool × List String :=
  let isDuplicate := decide (r.msg ∈ msgs)
  (!isDuplicate, if isDuplicate then msgs else r.msg :: msgs)

/-- `logging.Filterer.filter`: all filters of the logger in order, stopping at the first refusal.
`q` is the `WarningFilter` object; `other` says what any other filter object answers
(simplification: other filters are stateless). For `tools.py` 309-322. -/
def runFilters (q : ℕ) (other : ℕ → LogRecord → Bool) (r : LogRecord) :
    List ℕ → List String → Bool × List String
  | [], msgs => (true, msgs)
  | f :: fs, msgs =>
    if f = q then
      let (ok, msgs) := filterCall msgs r
      if ok then runFilters q other r fs msgs else (false, msgs)
    else if other f r then runFilters q other r fs msgs else (false, msgs)

/-- `logging.Filterer.addFilter`: append unless present. Called in `tools.py` 316-318. -/
def addFilter (f : ℕ) (l : List ℕ) : List ℕ := if f ∈ l then l else l ++ [f]

/-- `logging.Filterer.removeFilter`: remove (the first occurrence) if present. Called in `tools.py` 320-322. -/
def removeFilter (f : ℕ) (l : List ℕ) : List ℕ := if f ∈ l then l.erase f else l

/-- What can happen while the filter is active. `openmc_interface.py` 162-186. -/
inductive LogOp
  | log (r : LogRecord)
  | add (logger : Bool) (f : ℕ)
  | remove (logger : Bool) (f : ℕ)

/-- One operation: the new state and the record emitted, if any. `tools.py` 299-322. -/
def LogOp.step (q : ℕ) (other : ℕ → LogRecord → Bool) (s : LogState) :
    LogOp → LogState × List LogRecord
  | .log r =>
    let (ok, msgs) := runFilters q other r (s.filters r.logger) s.msgs
    ({ s with msgs := msgs }, if ok then [r] else [])
  | .add lg f => ({ s with filters := fun b => if b = lg then addFilter f (s.filters b)
                                              else s.filters b }, [])
  | .remove lg f => ({ s with filters := fun b => if b = lg then removeFilter f (s.filters b)
                                                 else s.filters b }, [])

/-- A sequence of operations: final state and all emitted records. `openmc_interface.py` 162-186. -/
def runOps (q : ℕ) (other : ℕ → LogRecord → Bool) :
    LogState → List LogOp → LogState × List LogRecord
  | s, [] => (s, [])
  | s, op :: ops =>
    let (s', out) := op.step q other s
    let (s'', out') := runOps q other s' ops
    (s'', out ++ out')

/-- `with QuietTTSpectrumWarnings(): body` (`tools.py` 305-331, used in `openmc_interface.py` 162):
a new filter object with empty `msgs`, `__enter__` on both loggers, the body up to its end or to the
point where it raises, `__exit__` on both loggers (which runs in either case and does not swallow
the exception). -/
def withQuiet (q : ℕ) (other : ℕ → LogRecord → Bool) (filters : Bool → List ℕ)
    (body : List LogOp) (raises : Option Err) :
    (Bool → List ℕ) × List LogRecord × Option Err :=
  let entered : LogState := { filters := fun b => addFilter q (filters b), msgs := [] }
  let (s, out) := runOps q other entered body
  (fun b => removeFilter q (s.filters b), out, raises)

/-! ### Data directory -/

/-- `Path(a, b)`: an absolute second part replaces the first, an empty one is ignored.
Simplification: pathlib's clean-up of repeated separators and `.` is not modelled. `tools.py` 21. -/
def pathJoin (a b : String) : String :=
  if b = "" then a else if b.toList.head? = some '/' then b else a ++ "/" ++ b

/-- `_get_relpath` (`tools.py` 20-24). -/
def getRelpath (isDir : String → Bool) (folder subfolder : String) : Except Err String :=
  if isDir (pathJoin folder subfolder) then .ok (pathJoin folder subfolder) else .error .valueError

/-- `get_tns_path` (`tools.py` 46-69); `root` is `get_tns_root()` and `os.sep` is `/`. -/
def getTnsPath (isDir : String → Bool) (root path subfolder : String) : Except Err String :=
  if "egg".toList <:+: root.toList then .ok ("/" ++ subfolder)
  else do
    let mainPath ← getRelpath isDir root subfolder
    getRelpath isDir mainPath path

/-! ### Plot -/

/-- A plotted channel: its title and the values that colour the cells. `main.py` 312-320. -/
structure Panel (K : Type) where
  title : String
  values : List K
  deriving DecidableEq

section
variable {K : Type} [Field K]

/-- The loop over the requested reactions (`main.py` 296-304): those in the source, and those warned
about. -/
def plotSelect (sourceType : List Reaction) : List Reaction → List Reaction × List Reaction
  | [] => ([], [])
  | r :: rs =>
    let (sel, warned) := plotSelect sourceType rs
    if r ∈ sourceType then (r :: sel, warned) else (sel, r :: warned)

/-- `TokamakNeutronSource.plot` (`main.py` 275-333): the panels drawn, from left to right.
`plt.subplots(1, 0)` raises `ValueError`.  Everything else about the figure is not modelled. -/
def Source.plot (s : Source K) (reactions : Option (List Reaction)) : Except Err (List (Panel K)) :=
  let draw : List Reaction → Except Err (List (Panel K)) := fun l =>
    if l.length = 0 then .error .valueError
    else .ok (l.map (fun r => ⟨r.label ++ " reaction", s.strength.getD r []⟩))
  match reactions with
  | none => draw s.sourceType
  | some l =>
    if (plotSelect s.sourceType l).1.length = 0 then .error .tnsError
    else draw (plotSelect s.sourceType l).1

end
end TNS
