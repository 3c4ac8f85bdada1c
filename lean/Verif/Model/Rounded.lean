import Verif.Model.Source
import Mathlib.Data.Real.Basic
/-
The arithmetic of the constructor and of `normalise_fusion_power` with rounding: every single
operation is followed by a rounding `rd`, and sums are made by an unspecified summation routine.
The rest of the model computes exactly; this part says what rounding does to the bookkeeping.
-/

set_option autoImplicit false

namespace TNS
noncomputable section

/-- A floating point arithmetic: rounding of the exact result of one operation, `np.sum`, and the
built-in `sum`. For `main.py` 123-135, 182-211. -/
structure Arith where
  rd : ℝ → ℝ
  npSum : List ℝ → ℝ
  pySum : List ℝ → ℝ

/-- `n1_n2` (`reactivity.py` 78-88), rounded operation by operation. -/
def pairDensityR (A : Arith) (r : Reaction) (d t h : List ℝ) : List ℝ :=
  match r with
  | .n .D_D | .a .D_D => (List.zipWith (fun a b => A.rd (a * b)) d d).map (fun x => A.rd (x / 2))
  | .n .D_T => List.zipWith (fun a b => A.rd (a * b)) d t
  | .n .T_T => (List.zipWith (fun a b => A.rd (a * b)) t t).map (fun x => A.rd (x / 2))
  | .a .D_He3 => List.zipWith (fun a b => A.rd (a * b)) d h

/-- The strength array of one reaction: `density_weighted_reactivity` (`reactivity.py` 90) times
`d_volume` (`main.py` 122-130), for given reactivities `sv`. -/
def strengthR (A : Arith) (d t h sv vol : List ℝ) (r : Reaction) : List ℝ :=
  List.zipWith (fun a b => A.rd (a * b))
    (List.zipWith (fun a b => A.rd (a * b)) (pairDensityR A r d t h) sv) vol

/-- One iteration of the loop of the constructor (`main.py` 122-135).  The reactivity arrays are
parameters. -/
def Source.addReactionR (A : Arith) (d t h : List ℝ) (sv : Reaction → List ℝ) (s : Source ℝ)
    (r : Reaction) : Source ℝ :=
  let str := strengthR A d t h (sv r) s.dVolume r
  let num := A.pySum str
  { s with
    strength := s.strength.set r str
    numReactions := s.numReactions.set r num
    numNeutrons := s.numNeutrons.set r (A.rd (num * (r.numNeutrons : ℝ))) }

/-- The constructor after the profiles are evaluated, without normalisation (`main.py` 117-135).
`s0` holds positions, volumes and temperatures. -/
def Source.initR (A : Arith) (st : List Reaction) (x z vol temp d t h : List ℝ) (L : ℝ)
    (sv : Reaction → List ℝ) : Source ℝ :=
  st.foldl (Source.addReactionR A d t h sv)
    { sourceType := st, x := x, z := z, dVolume := vol, cellSideLength := L, temperature := temp,
      strength := [], numReactions := [], numNeutrons := [] }

/-- `calculate_total_fusion_power` (`main.py` 169-187). -/
def Source.totalPowerR (A : Arith) (Q : Reaction → ℝ) (s : Source ℝ) : ℝ :=
  A.pySum (s.sourceType.map fun r => A.npSum ((s.strength.getD r []).map fun x => A.rd (x * Q r)))

/-- The loop body of `normalise_fusion_power` (`main.py` 208-211). -/
def Source.scaleReactionR (A : Arith) (f : ℝ) (s : Source ℝ) (r : Reaction) : Source ℝ :=
  { s with
    strength := s.strength.modify r (fun l => l.map fun x => A.rd (x * f))
    numReactions := s.numReactions.modify r (fun x => A.rd (x * f))
    numNeutrons := s.numNeutrons.modify r (fun x => A.rd (x * f)) }

open Classical in
/-- `normalise_fusion_power` (`main.py` 189-211).  A computed total power of 0 is marked
`nonFinite`, see `Source.normalise`. -/
def Source.normaliseR (A : Arith) (Q : Reaction → ℝ) (P : ℝ) (s : Source ℝ) :
    Except Err (Source ℝ) :=
  if s.sourceType = [] then .error .zeroDivisionError
  else if s.totalPowerR A Q = 0 then .error .nonFinite
  else .ok (s.sourceType.foldl (Source.scaleReactionR A (A.rd (P / s.totalPowerR A Q))) s)

/-- A history of `normalise_fusion_power` calls. `main.py` 189-211. -/
def Source.normalisesR (A : Arith) (Q : Reaction → ℝ) (s : Source ℝ) (Ps : List ℝ) :
    Except Err (Source ℝ) :=
  Ps.foldlM (fun s P => s.normaliseR A Q P) s

end
end TNS
