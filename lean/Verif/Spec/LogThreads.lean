import Verif.Model.LogThreads
/-
Specification: exports in several threads and the log filter.
-/

set_option autoImplicit false

namespace TNS.Spec

/-- The exports of a thread. -/
def exportsOf : List LogSession → List ℕ
  | [] => []
  | .exporting e _ :: l => e :: exportsOf l
  | .logging _ :: l => exportsOf l

/-- The records a thread logs. -/
def recordsOf : List LogSession → List LogRecord
  | [] => []
  | .exporting _ body :: l => body ++ recordsOf l
  | .logging r :: l => r :: recordsOf l

/-- Every export has a filter object of its own. -/
def DistinctExports (prog : ℕ → List LogSession) : Prop :=
  (∀ t, (exportsOf (prog t)).Nodup) ∧ ∀ t t', t ≠ t' → ∀ e, e ∈ exportsOf (prog t) → e ∉ exportsOf (prog t')

/-- Before, only filters of the user are attached, none twice. -/
def UserFilters (filters : Bool → List FilterObj) : Prop :=
  ∀ b, (filters b).Nodup ∧ ∀ f ∈ filters b, ∃ n, f = .user n

/-- The filters of the user let the record through. -/
def UserPasses (user : ℕ → LogRecord → Bool) (filters : Bool → List FilterObj) (r : LogRecord) : Prop :=
  ∀ n, FilterObj.user n ∈ filters r.logger → user n r = true

/-- All threads have come to their end. -/
def AllDone (s : LogSys) : Prop := ∀ t, (s.threads t).code = [] ∧ (s.threads t).call = none

end TNS.Spec
