import Verif.Model.World
/-
`normalise_fusion_power` called by several threads.  numpy releases the global lock inside array operations, so the
steps are single loads and stores of numbers; between any two of them any other thread may run.
-/

set_option autoImplicit false

namespace TNS
noncomputable section

/-- Where a thread is inside `normalise_fusion_power` (`main.py` 182-187, 205-211), with its local variables. -/
inductive NormPc
  /-- Before the next term of the sum over channels (`main.py` 182-187). -/
  | power (sums : List (XF ℝ)) (todo : List Reaction)
  /-- Inside `self.strength[reaction] * reaction.total_energy` (`main.py` 184), `tmp` the elements made so far. -/
  | read (r : Reaction) (tmp sums : List (XF ℝ)) (todo : List Reaction)
  /-- At the head of the loop (`main.py` 208). -/
  | loop (f : XF ℝ) (todo : List Reaction)
  /-- Inside `self.strength[reaction] *= scaling_factor` (`main.py` 209), before loading element `i`. -/
  | mulLoad (f : XF ℝ) (r : Reaction) (i : ℕ) (todo : List Reaction)
  /-- The same, before storing element `i`. -/
  | mulStore (f : XF ℝ) (r : Reaction) (i : ℕ) (v : XF ℝ) (todo : List Reaction)
  /-- `self.num_reactions_per_second[reaction] *= scaling_factor` (`main.py` 210). -/
  | reacLoad (f : XF ℝ) (r : Reaction) (todo : List Reaction)
  | reacStore (f : XF ℝ) (r : Reaction) (v : XF ℝ) (todo : List Reaction)
  /-- `self.num_neutrons_per_second[reaction] *= scaling_factor` (`main.py` 211). -/
  | neutLoad (f : XF ℝ) (r : Reaction) (todo : List Reaction)
  | neutStore (f : XF ℝ) (r : Reaction) (v : XF ℝ) (todo : List Reaction)
  /-- Returned. -/
  | done
  /-- Raised `ZeroDivisionError` (`main.py` 206, no channel). -/
  | raised

/-- A thread calling `normalise_fusion_power(power)` on source number `src` (`main.py` 189-211). -/
structure NormThread where
  src : ℕ
  power : ℝ
  pc : NormPc

/-- The array `self.strength[r]` (`main.py` 184, 209).  Missing keys do not occur, see C83. -/
def SourceRef.channel (m : Arrays) (s : SourceRef) (r : Reaction) : List (XF ℝ) :=
  match s.strength.get? r with
  | some a => m.read a
  | none => []

/-- A store into `self.strength[r]` (`main.py` 209). -/
def SourceRef.store (m : Arrays) (s : SourceRef) (r : Reaction) (i : ℕ) (v : XF ℝ) : Arrays :=
  match s.strength.get? r with
  | some a => m.modify a (fun l => l.set i v)
  | none => m

/-- One step of a thread (`main.py` 182-187, 205-211) on the memory and the object. -/
def NormPc.step (Q : Reaction → XF ℝ) (P : XF ℝ) (m : Arrays) (s : SourceRef) : NormPc → (Arrays × SourceRef) × NormPc
  | .power sums [] => ((m, s), if s.sourceType = [] then .raised else .loop (P / sums.sum) s.sourceType)
  | .power sums (r :: todo) => ((m, s), .read r [] sums todo)
  | .read r tmp sums todo =>
    ((m, s), match (s.channel m r)[tmp.length]? with
      | some x => .read r (tmp ++ [x * Q r]) sums todo
      | none => .power (sums ++ [tmp.sum]) todo)
  | .loop _ [] => ((m, s), .done)
  | .loop f (r :: todo) => ((m, s), .mulLoad f r 0 todo)
  | .mulLoad f r i todo =>
    ((m, s), match (s.channel m r)[i]? with
      | some x => .mulStore f r i (x * f) todo
      | none => .reacLoad f r todo)
  | .mulStore f r i v todo => ((s.store m r i v, s), .mulLoad f r (i + 1) todo)
  | .reacLoad f r todo =>
    ((m, s), match s.numReactions.get? r with
      | some x => .reacStore f r (x * f) todo
      | none => .neutLoad f r todo)
  | .reacStore f r v todo =>
    ((m, { s with numReactions := s.numReactions.modify r (fun _ => v) }), .neutLoad f r todo)
  | .neutLoad f r todo =>
    ((m, s), match s.numNeutrons.get? r with
      | some x => .neutStore f r (x * f) todo
      | none => .loop f todo)
  | .neutStore f r v todo =>
    ((m, { s with numNeutrons := s.numNeutrons.modify r (fun _ => v) }), .loop f todo)
  | .done => ((m, s), .done)
  | .raised => ((m, s), .raised)

/-- A thread about to call `normalise_fusion_power` on a source; the generator of `calculate_total_fusion_power`
(`main.py` 182-187) runs over `source_type`. -/
def NormThread.start (w : World) (j : ℕ) (P : ℝ) : NormThread :=
  ⟨j, P, .power [] ((w.sources[j]?).map SourceRef.sourceType |>.getD [])⟩

/-- The memory and the threads. No counterpart in the code. -/
structure Pool where
  world : World
  threads : List NormThread

/-- Thread number `t` makes one step (`main.py` 182-211). -/
def Pool.step (pkg : Package) (p : Pool) (t : ℕ) : Pool :=
  match p.threads[t]? with
  | none => p
  | some th =>
    match p.world.sources[th.src]? with
    | none => p
    | some s =>
      let e := th.pc.step (fun r => .fin (pkg.energy r)) (.fin th.power) p.world.arrays s
      { world := { p.world with arrays := e.1.1, sources := p.world.sources.set th.src e.1.2 }
        threads := p.threads.set t { th with pc := e.2 } }

/-- The threads run as the scheduler says. No counterpart in the code. -/
def Pool.run (pkg : Package) (p : Pool) (sched : List ℕ) : Pool := sched.foldl (Pool.step pkg) p

end
end TNS
