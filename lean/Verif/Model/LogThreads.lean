import Verif.Model.Tools
import Mathlib.Logic.Function.Basic
/-
Model of the log filter of `tokamak_neutron_source/tools.py` when exports run in several threads.

A step is one operation of the interpreter that cannot be interrupted: one access to a filter list or to a
set of messages.  `Filterer.filter` of the `logging` library walks along the list of filters of the logger by
index while other threads may change that list, and `WarningFilter.filter` asks whether the message is in its
set in one step and adds it in another.
-/

set_option autoImplicit false

namespace TNS

/-- A filter object attached to a logger: one of the user, or the `QuietTTSpectrumWarnings` object of the
export number `e` (`openmc_interface.py` 162, `tools.py` 299-331). -/
inductive FilterObj
  | user (n : ℕ)
  | quiet (e : ℕ)
  deriving DecidableEq, Repr

/-- What a thread does, in order: one iteration of the loops of `__enter__` and `__exit__`
(`tools.py` 316-322), or a log call (`energy.py` 64, `energy_data.py` 69). -/
inductive Instr
  | attach (logger : Bool) (e : ℕ)
  | detach (logger : Bool) (e : ℕ)
  | log (r : LogRecord)
  deriving DecidableEq, Repr

/-- Where a log call is: about to take the next filter from the list, about to ask whether the message is in
the set of a filter, or about to add it there (`tools.py` 309-314). -/
inductive CallPhase
  | next
  | check (e : ℕ)
  | add (e : ℕ)
  deriving DecidableEq, Repr

/-- A log call in progress: the record, the index in the list of filters, the phase (`tools.py` 309-314). -/
structure LogCall where
  record : LogRecord
  idx : ℕ
  phase : CallPhase

/-- A thread: what it still has to do, and the log call it is in, if any (`openmc_interface.py` 162-186). -/
structure LogThread where
  code : List Instr
  call : Option LogCall

/-- The process: the filters of the two loggers, the sets `msgs` of the filter objects, the records handed to
the handlers so far, the threads (`tools.py` 305-307). -/
structure LogSys where
  filters : Bool → List FilterObj
  msgs : ℕ → List String
  out : List LogRecord
  threads : ℕ → LogThread

/-- The thread `t` leaves its log call or goes on in it (`tools.py` 309-314). -/
def LogSys.setCall (s : LogSys) (t : ℕ) (c : Option LogCall) : LogSys :=
  { s with threads := Function.update s.threads t { s.threads t with call := c } }

/-- One step of a log call (`tools.py` 309-314 and `logging.Filterer.filter`). -/
def LogSys.stepCall (user : ℕ → LogRecord → Bool) (s : LogSys) (t : ℕ) (c : LogCall) : LogSys :=
  match c.phase with
  | .next =>
    match (s.filters c.record.logger)[c.idx]? with
    | none => { s.setCall t none with out := s.out ++ [c.record] }
    | some (.user n) =>
      if user n c.record then s.setCall t (some { c with idx := c.idx + 1 }) else s.setCall t none
    | some (.quiet e) => s.setCall t (some { c with phase := .check e })
  | .check e =>
    if c.record.msg ∈ s.msgs e then s.setCall t none else s.setCall t (some { c with phase := .add e })
  | .add e =>
    { s.setCall t (some { c with idx := c.idx + 1, phase := .next }) with
      msgs := Function.update s.msgs e (c.record.msg :: s.msgs e) }

/-- One step of the thread `t` (`tools.py` 309-322).  `addFilter` and `removeFilter` of the `logging` library
look whether the filter is attached and then change the list; as no other thread attaches or detaches the
same object, this is one step. -/
def LogSys.step (user : ℕ → LogRecord → Bool) (s : LogSys) (t : ℕ) : LogSys :=
  match (s.threads t).call with
  | some c => s.stepCall user t c
  | none =>
    match (s.threads t).code with
    | [] => s
    | .attach lg e :: rest =>
      { s with
        filters := fun b => if b = lg then
          (if .quiet e ∈ s.filters b then s.filters b else s.filters b ++ [.quiet e]) else s.filters b
        threads := Function.update s.threads t ⟨rest, none⟩ }
    | .detach lg e :: rest =>
      { s with
        filters := fun b => if b = lg then
          (if .quiet e ∈ s.filters b then (s.filters b).erase (.quiet e) else s.filters b) else s.filters b
        threads := Function.update s.threads t ⟨rest, none⟩ }
    | .log r :: rest => { s with threads := Function.update s.threads t ⟨rest, some ⟨r, 0, .next⟩⟩ }

/-- What a thread does at top level: an export, `with QuietTTSpectrumWarnings():` around the log calls of the
spectra (`openmc_interface.py` 162-186; if the body raises, `body` are the calls made until then, and
`__exit__` runs all the same), or a log call outside of an export. -/
inductive LogSession
  | exporting (e : ℕ) (body : List LogRecord)
  | logging (r : LogRecord)

/-- The steps of a session (`openmc_interface.py` 162-186, `tools.py` 316-322). -/
def LogSession.code : LogSession → List Instr
  | .exporting e body =>
    .attach false e :: .attach true e :: (body.map .log ++ [.detach false e, .detach true e])
  | .logging r => [.log r]

/-- The process before the first step: the filters of the user, nothing remembered, nothing emitted
(`tools.py` 305-307). -/
def LogSys.start (filters : Bool → List FilterObj) (prog : ℕ → List LogSession) : LogSys :=
  ⟨filters, fun _ => [], [], fun t => ⟨(prog t).flatMap LogSession.code, none⟩⟩

/-- The process after the steps of the threads in the order of a schedule; no counterpart in the code (the
operating system and the interpreter choose). -/
def LogSys.run (user : ℕ → LogRecord → Bool) (s : LogSys) (sched : List ℕ) : LogSys :=
  sched.foldl (LogSys.step user) s

end TNS
