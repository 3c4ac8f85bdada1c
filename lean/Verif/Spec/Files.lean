import Verif.Model.Files
/-
Specification: what the files on the disk may look like while and after files are written.
-/

set_option autoImplicit false

namespace TNS.Spec

/-- While the files `files` (names and contents, in this order) are being written on a disk that was `before`:
the first ones are complete, the last ones are as they were, and at most one in between is as it was or has the
beginning of its new content.  Names that are not in the list are not spoken about. -/
def WrittenUpTo (files : List (String × List Char)) (before after : Disk) : Prop :=
  ∃ done rest, files = done ++ rest ∧ (∀ p ∈ done, after p.1 = some p.2) ∧
    (∀ p ∈ rest.head?, after p.1 = before p.1 ∨ ∃ t, t <+: p.2 ∧ after p.1 = some t) ∧
    ∀ p ∈ rest.tail, after p.1 = before p.1

/-- All files are complete. -/
def AllWritten (files : List (String × List Char)) (after : Disk) : Prop :=
  ∀ p ∈ files, after p.1 = some p.2

/-- The files of an export: one for each reaction with neutrons, with the name and the text of C28 and C67. -/
def SdefTexts (cit : Citation) (stub : String) (s : Source ℝ) (texts : List (String × List Char)) : Prop :=
  ∃ files, s.toSdef stub = .ok files ∧
    List.Forall₂ (fun (f : SdefFile ℝ) (p : String × List Char) =>
      p.1 = f.name ∧ ∃ r, f.reaction = .n r ∧ sdefText cit r f = .ok p.2) files texts

/-- Nobody but the call `t` has a file with one of these names open or will open one. -/
def SoleWriter (s : FileSys) (t : ℕ) (names : List String) : Prop :=
  ∀ t' ≠ t, (∀ h, (s.jobs t').handle = some h → h.name ∉ names) ∧
    ∀ n, .openW n ∈ (s.jobs t').code → n ∉ names

/-- The call has returned: nothing left to do, not killed, no exception. -/
def Returned (j : FileJob) : Prop := j.code = [] ∧ j.handle = none ∧ j.killed = false ∧ j.raised = none

end TNS.Spec
