import Verif.Model.SdefText
import Mathlib.Logic.Function.Basic
/-
Model of how `write_mcnp_sdef_source` (`mcnp_interface.py` 66-112) changes the files on the disk, when calls
run one after the other or at the same time in any number of processes, and may be killed at any point.

A file is a list of characters (not bytes: a write that ends inside of an encoded character is not modelled).
Python's text file has a buffer, which goes to the disk in parts of any length at any time, and entirely when
the file is closed.  Not modelled: deletion of files, errors of the operating system as such (an `OSError` is
like being killed after some part of the buffer was written), power failure.
-/

set_option autoImplicit false

namespace TNS

/-- The operations on files in `write_mcnp_sdef_source` (`mcnp_interface.py` 100-107): open for writing, write,
leave the `with` block, and an exception that ends the call. -/
inductive FileOp
  | openW (name : String)
  | write (text : List Char)
  | close
  | raise (e : Err)

/-- The files of the disk and their content. -/
abbrev Disk := String → Option (List Char)

/-- An open file (`mcnp_interface.py` 100): its name, the offset of the next part that goes to the disk, and the
characters written that are not on the disk yet. -/
structure FileHandle where
  name : String
  pos : ℕ
  buf : List Char

/-- A call of `to_sdef_card` (`main.py` 244-261): what it still has to do, the file it has open, and how it
ended, if not by returning. -/
structure FileJob where
  code : List FileOp
  handle : Option FileHandle
  killed : Bool
  raised : Option Err

/-- The disk, and the calls (`main.py` 244-261). -/
structure FileSys where
  disk : Disk
  jobs : ℕ → FileJob

/-- Content of a file after `d` has been written at offset `pos` (the write to the file descriptor below
`sdef_file.write`, `mcnp_interface.py` 101-107); a gap is filled with NUL. -/
def overwrite (old : List Char) (pos : ℕ) (d : List Char) : List Char :=
  old.take pos ++ List.replicate (pos - old.length) '\x00' ++ d ++ old.drop (pos + d.length)

/-- The first `n` characters of the buffer go to the disk (`mcnp_interface.py` 101-107). -/
def FileSys.flush (s : FileSys) (t n : ℕ) : FileSys :=
  match (s.jobs t).handle with
  | none => s
  | some h =>
    { disk := Function.update s.disk h.name
        (some (overwrite ((s.disk h.name).getD []) h.pos (h.buf.take n)))
      jobs := Function.update s.jobs t { s.jobs t with
        handle := some ⟨h.name, h.pos + (h.buf.take n).length, h.buf.drop n⟩ } }

/-- The call executes its next operation (`mcnp_interface.py` 100-107). -/
def FileSys.step (s : FileSys) (t : ℕ) : FileSys :=
  match (s.jobs t).code with
  | [] => s
  | .openW name :: rest =>
    { disk := Function.update s.disk name (some [])
      jobs := Function.update s.jobs t { s.jobs t with code := rest, handle := some ⟨name, 0, []⟩ } }
  | .write text :: rest =>
    { s with jobs := Function.update s.jobs t { s.jobs t with
        code := rest, handle := (s.jobs t).handle.map (fun h => { h with buf := h.buf ++ text }) } }
  | .close :: rest =>
    let s' := s.flush t (((s.jobs t).handle.map (·.buf.length)).getD 0)
    { s' with jobs := Function.update s'.jobs t { s.jobs t with code := rest, handle := none } }
  | .raise e :: _ =>
    { s with jobs := Function.update s.jobs t { s.jobs t with code := [], handle := none, raised := some e } }

/-- The process of the call is killed: what was not on the disk is lost.  No counterpart in the code. -/
def FileSys.kill (s : FileSys) (t : ℕ) : FileSys :=
  { s with jobs := Function.update s.jobs t { s.jobs t with code := [], handle := none, killed := true } }

/-- What can happen next; chosen by the operating system, no counterpart in the code. -/
inductive FileEvent
  | step (t : ℕ)
  | flush (t n : ℕ)
  | kill (t : ℕ)

/-- The system after one event (`mcnp_interface.py` 66-112). -/
def FileSys.next (s : FileSys) : FileEvent → FileSys
  | .step t => s.step t
  | .flush t n => s.flush t n
  | .kill t => s.kill t

/-- The system after the events of a history (`mcnp_interface.py` 66-112). -/
def FileSys.run (s : FileSys) (es : List FileEvent) : FileSys := es.foldl FileSys.next s

noncomputable section

/-- The writes of the vertical cards and the end of the `with` block (`mcnp_interface.py` 104-107); an exception
of the generator leaves the block, which closes the file. -/
def verticalOps : List (ℕ × List ℝ × List ℝ) → List FileOp
  | [] => [.close]
  | v :: vs =>
    match verticalText v with
    | .error e => [.close, .raise e]
    | .ok t => .write t :: verticalOps vs

/-- What is computed before the file is opened (`mcnp_interface.py` 71-98, 101-103). -/
def headText (cit : Citation) (r : Neutronic) (f : SdefFile ℝ) : Except Err (List Char) := do
  let header ← sdefHeader cit r f.total f.ionTemp
  let si ← textWrap (joinBlank ("SI3".toList :: "H".toList :: f.cards.si3.map (formatE 5))) 6 80 1
  let sp ← textWrap (joinBlank ("SP3".toList :: "D".toList :: f.cards.sp3.map (formatE 5))) 6 80 1
  let ds ← textWrap (joinBlank ("DS4".toList :: "S".toList :: f.cards.ds4.map formatD)) 6 80 1
  .ok (header ++ si ++ sp ++ ds ++
    nlText ["C".toList, "C 3. Neutron Emission Probability - Vertical Distribution".toList, "C".toList])

/-- One round of the loop for a neutronic reaction (`mcnp_interface.py` 66-107). -/
def fileOps (cit : Citation) (stub : String) (s : Source ℝ) (r : Neutronic) (data : List ℝ) : List FileOp :=
  match sdefCards s.x s.z s.cellSideLength data with
  | .error e => [.raise e]
  | .ok c =>
    match headText cit r ⟨sdefFileName stub (.n r), .n r, headerTotal data, meanIonTemp data s.temperature, c⟩ with
    | .error e => [.raise e]
    | .ok head => .openW (sdefFileName stub (.n r)) :: .write head :: verticalOps c.vertical

/-- The operations of a call of `to_sdef_card` (`main.py` 244-261, `mcnp_interface.py` 66-112).  As in
`sdefText`, a T-T file that would contain `nan` is an error here. -/
def Source.sdefOps (cit : Citation) (stub : String) (s : Source ℝ) : List FileOp :=
  s.strength.flatMap (fun p => match p.1 with
    | .n r => fileOps cit stub s r p.2
    | .a _ => [])

/-- A call that has not begun. -/
def FileJob.start (code : List FileOp) : FileJob := ⟨code, none, false, none⟩

end
end TNS
