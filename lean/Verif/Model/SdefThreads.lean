import Verif.Model.ExportThreads
import Verif.Model.Mcnp
/-
`to_sdef_card` called by one thread while other threads call `normalise_fusion_power`.  As in `NormThreads`, the steps
are single loads and stores of numbers.
-/

set_option autoImplicit false

namespace TNS
noncomputable section

/-- How often `write_mcnp_sdef_source` goes through the strengths of a channel: `sum(reaction_data)` (`mcnp_interface.py`
171), `strength * temperature` and `np.sum(strength)` (241), the column sums of the SP3 card (88), the vertical SP cards
(144). -/
def sdefPasses : ℕ := 5

/-- Where a thread is inside `write_mcnp_sdef_source` (`mcnp_interface.py` 66-108), with the numbers it has loaded from the
shared object. -/
inductive SdefPc
  /-- At the head of the loop (`mcnp_interface.py` 66-67); `done` has the five loads of each channel written. -/
  | next (done : Dict Reaction (List (List (XF ℝ)))) (todo : List Reaction)
  /-- Inside the body (68-108): `got` the completed passes through the channel, `tmp` the strengths loaded in this one. -/
  | pass (done : Dict Reaction (List (List (XF ℝ)))) (r : Reaction) (got : List (List (XF ℝ))) (tmp : List (XF ℝ))
      (todo : List Reaction)
  /-- Returned. -/
  | written (done : Dict Reaction (List (List (XF ℝ))))

/-- One step of the exporting thread (`mcnp_interface.py` 66-108, 144, 171, 241).  Simplification: each pass loads the cells
in order (`np.sum` adds blocks of eight). -/
def SdefPc.step (m : Arrays) (s : SourceRef) : SdefPc → SdefPc
  | .next d [] => .written d
  | .next d (r :: todo) => .pass d r [] [] todo
  | .pass d r got tmp todo =>
    match (s.channel m r)[tmp.length]? with
    | some v => .pass d r got (tmp ++ [v]) todo
    | none =>
      if got.length + 1 = sdefPasses then .next (d ++ [(r, got ++ [tmp])]) todo else .pass d r (got ++ [tmp]) [] todo
  | .written d => .written d

/-- Normalising threads and one thread writing SDEF files of source number `src` (`main.py` 189-261). -/
structure SdefPool where
  pool : Pool
  src : ℕ
  pc : SdefPc

/-- The exporting thread is about to call `to_sdef_card` (`main.py` 244-261). -/
def SdefPool.start (p : Pool) (j : ℕ) : SdefPool :=
  ⟨p, j, .next [] (((p.world.sources[j]?).map (fun s => s.strength.keys) |>.getD []).filter (fun r => r.isNeutronic))⟩

/-- `some t`: normalising thread `t` makes a step; `none`: the exporting thread does (`main.py` 182-261). -/
def SdefPool.step (pkg : Package) (e : SdefPool) : Option ℕ → SdefPool
  | some t => { e with pool := e.pool.step pkg t }
  | none =>
    match e.pool.world.sources[e.src]? with
    | none => e
    | some s => { e with pc := e.pc.step e.pool.world.arrays s }

/-- The threads run as the scheduler says. No counterpart in the code. -/
def SdefPool.run (pkg : Package) (e : SdefPool) (sched : List (Option ℕ)) : SdefPool :=
  sched.foldl (SdefPool.step pkg) e

/-- The cards of one reaction (`mcnp_interface.py` 55-107, as `sdefCards`), from the strengths loaded for the SP3 card (88)
and those loaded for the vertical SP cards (144). -/
def sdefCardsLoaded (r z : List ℝ) (side : ℝ) (column vertical : List ℝ) : Except Err (SdefCards ℝ) := do
  let r := r.map (· * 100)
  let z := z.map (· * 100)
  let dr := side * 100
  let bounds ← rBounds r dr
  let zi := zInts r
  .ok { si3 := bounds
        sp3 := 0 :: (columns zi column).map List.sum
        ds4 := ds4 bounds
        vertical := verticalCards zi z vertical (dr / 2) }

/-- One file (`mcnp_interface.py` 68-108), from the strengths loaded for the total (171), the two sums of `mean_ion_temp`
(241), the SP3 card (88) and the vertical SP cards (144). -/
def sdefFileLoaded (stub : String) (x z : List ℝ) (side : ℝ) (temperature : List ℝ) (r : Reaction)
    (total product weight column vertical : List ℝ) : Except Err (SdefFile ℝ) := do
  let c ← sdefCardsLoaded x z side column vertical
  .ok { name := sdefFileName stub r, reaction := r, total := headerTotal total
        ionTemp := XF.fin (List.zipWith (· * ·) product temperature).sum / XF.fin weight.sum, cards := c }

/-- The files (`mcnp_interface.py` 66-108) from the numbers loaded for each reaction. -/
def sdefFilesLoaded (stub : String) (x z : List ℝ) (side : ℝ) (temperature : List ℝ)
    (loads : List (Reaction × List (List ℝ))) : Option (Except Err (List (SdefFile ℝ))) := do
  let fs ← loads.mapM (fun p =>
    match p.2 with
    | [a, b, c, d, e] => some (sdefFileLoaded stub x z side temperature p.1 a b c d e)
    | _ => none)
  some (fs.mapM (fun f => f))

/-- The files written by `to_sdef_card` (`mcnp_interface.py` 66-108), computed from the numbers loaded; `none` before all
loads are done.  Simplifications: also `none` if one of them is not finite; the energy card is given by its temperature, as
in `Source.toSdef`. -/
def SdefPool.result (stub : String) (e : SdefPool) : Option (Except Err (List (SdefFile ℝ))) :=
  match e.pc, e.pool.world.source? e.src with
  | .written d, some S => do
    let x ← S.x.mapM XF.fin?
    let z ← S.z.mapM XF.fin?
    let L ← S.cellSideLength.fin?
    let t ← S.temperature.mapM XF.fin?
    let loads ← d.mapM (fun p => do let l ← p.2.mapM (fun q => q.mapM XF.fin?); some (p.1, l))
    sdefFilesLoaded stub x z L t loads
  | _, _ => none

end
end TNS
