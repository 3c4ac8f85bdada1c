import Verif.Model.NormThreads
import Verif.Model.OpenMC
/-
`to_openmc_source` called by one thread while other threads call `normalise_fusion_power`.  As in `NormThreads`, the steps
are single loads and stores of numbers.
-/

set_option autoImplicit false

namespace TNS
noncomputable section

/-- Where a thread is inside `to_openmc_source` (`main.py` 228-242, `openmc_interface.py` 155-188), with the numbers it has
loaded from the shared object.  The attributes are evaluated in the order of the arguments, `source_rate` last; the strengths
are then copied into `n_strength`.  Nothing is loaded afterwards except `x`, `z` and `temperature`, which no call writes. -/
inductive ExportPc
  /-- Inside `sum(self.num_neutrons_per_second.values())` (`main.py` 148). -/
  | rates (got : Dict Reaction (XF ℝ)) (todo : List Reaction)
  /-- Before the next item of `n_strength` (`openmc_interface.py` 155-159). -/
  | copy (rates : Dict Reaction (XF ℝ)) (ns : Dict Reaction (List (XF ℝ))) (todo : List Reaction)
  /-- Inside `rate * reaction.num_neutrons` (`openmc_interface.py` 156), `tmp` the strengths loaded so far. -/
  | item (rates : Dict Reaction (XF ℝ)) (ns : Dict Reaction (List (XF ℝ))) (r : Reaction) (tmp : List (XF ℝ))
      (todo : List Reaction)
  /-- In the loop over the cells (`openmc_interface.py` 161-188); all loads are done. -/
  | cells (rates : Dict Reaction (XF ℝ)) (ns : Dict Reaction (List (XF ℝ)))

/-- One step of the exporting thread (`main.py` 148, `openmc_interface.py` 155-159).  Missing keys do not occur. -/
def ExportPc.step (m : Arrays) (s : SourceRef) : ExportPc → ExportPc
  | .rates got [] => .copy got [] (s.strength.keys.filter (fun r => r.isNeutronic))
  | .rates got (r :: todo) =>
    match s.numNeutrons.get? r with
    | some v => .rates (got ++ [(r, v)]) todo
    | none => .rates got todo
  | .copy rs ns [] => .cells rs ns
  | .copy rs ns (r :: todo) => .item rs ns r [] todo
  | .item rs ns r tmp todo =>
    match (s.channel m r)[tmp.length]? with
    | some v => .item rs ns r (tmp ++ [v]) todo
    | none => .copy rs (ns ++ [(r, tmp)]) todo
  | .cells rs ns => .cells rs ns

/-- Normalising threads and one thread exporting source number `src` (`main.py` 189-242). -/
structure ExportPool where
  pool : Pool
  src : ℕ
  pc : ExportPc

/-- The exporting thread is about to call `to_openmc_source` (`main.py` 213-242). -/
def ExportPool.start (p : Pool) (j : ℕ) : ExportPool :=
  ⟨p, j, .rates [] ((p.world.sources[j]?).map (fun s => s.numNeutrons.keys) |>.getD [])⟩

/-- `some t`: normalising thread `t` makes a step; `none`: the exporting thread does (`main.py` 182-242). -/
def ExportPool.step (pkg : Package) (e : ExportPool) : Option ℕ → ExportPool
  | some t => { e with pool := e.pool.step pkg t }
  | none =>
    match e.pool.world.sources[e.src]? with
    | none => e
    | some s => { e with pc := e.pc.step e.pool.world.arrays s }

/-- The threads run as the scheduler says. No counterpart in the code. -/
def ExportPool.run (pkg : Package) (e : ExportPool) (sched : List (Option ℕ)) : ExportPool :=
  sched.foldl (ExportPool.step pkg) e

/-- The number in a finite float. -/
def XF.fin? : XF ℝ → Option ℝ
  | .fin a => some a
  | _ => none

/-- What `to_openmc_source` returns (`openmc_interface.py` 161-188), computed from the numbers loaded; `none` before all loads
are done.  Simplification: also `none` if one of them is not finite. -/
def ExportPool.result {E : Type} (spectrum : Reaction → ℝ → Except Err E) (e : ExportPool) :
    Option (Except Err (List (Ring ℝ E))) :=
  match e.pc, e.pool.world.source? e.src with
  | .cells rs ns, some S => do
    let x ← S.x.mapM XF.fin?
    let z ← S.z.mapM XF.fin?
    let L ← S.cellSideLength.fin?
    let t ← S.temperature.mapM XF.fin?
    let str ← ns.mapM (fun p => do let l ← p.2.mapM XF.fin?; some (p.1, l))
    let nums ← rs.mapM (fun p => p.2.fin?)
    some (combinedSource spectrum x z L t str (if nums = [] then .intZero else .float (.fin nums.sum)))
  | _, _ => none

end
end TNS
