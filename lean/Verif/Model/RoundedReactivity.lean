import Verif.Model.Rounded
import Verif.Model.Reactivity
/-
The Bosch-Hale reactivity with rounding: decimal literals are rounded when the module is loaded, every operation
rounds, and `exp`, `sqrt` and `**` come from a library.  See `Verif.Model.Rounded`.
-/

set_option autoImplicit false

namespace TNS
noncomputable section

/-- The library functions `np.exp`, `np.sqrt` and `**` used by `reactivity.py` 221-229. -/
structure MathLib where
  exp : ℝ → ℝ
  sqrt : ℝ → ℝ
  pow : ℝ → ℝ → ℝ

/-- The decimal literals of a coefficient table (`reactivity_data.py` 88-145) as floats. -/
def BoschHale.lit (A : Arith) (b : BoschHale) : BoschHale :=
  { tMin := A.rd b.tMin, tMax := A.rd b.tMax, bg := A.rd b.bg, mrc2 := A.rd b.mrc2, c0 := A.rd b.c0
    c1 := A.rd b.c1, c2 := A.rd b.c2, c3 := A.rd b.c3, c4 := A.rd b.c4, c5 := A.rd b.c5, c6 := A.rd b.c6 }

/-- The numerator of `frac` (`reactivity.py` 213-214), `b` the floats. -/
def BoschHale.numR (A : Arith) (b : BoschHale) (t : ℝ) : ℝ :=
  A.rd (t * A.rd (b.c1 + A.rd (t * A.rd (b.c3 + A.rd (t * b.c5)))))

/-- The denominator of `frac` (`reactivity.py` 215-219), `b` the floats. -/
def BoschHale.denR (A : Arith) (b : BoschHale) (t : ℝ) : ℝ :=
  A.rd (1 + A.rd (t * A.rd (b.c2 + A.rd (t * A.rd (b.c4 + A.rd (t * b.c6))))))

open Classical in
/-- One entry of the result of `_reactivity_channel_bosch_hale` (`reactivity.py` 204-229), `b` the floats.
`1 - frac <= 0` (or a zero denominator) is marked `nonFinite` as in `BoschHale.entry`. -/
def BoschHale.entryR (A : Arith) (F : MathLib) (b : BoschHale) (t : ℝ) : Except Err ℝ :=
  if 0 < t then
    let frac := A.rd (b.numR A t / b.denR A t)
    if b.denR A t = 0 ∨ A.rd (1 - frac) ≤ 0 then .error .nonFinite
    else
      let theta := A.rd (t / A.rd (1 - frac))
      let chi := F.pow (A.rd (F.pow b.bg 2 / A.rd (4 * theta))) (A.rd (1 / 3))
      .ok (A.rd (A.rd (A.rd (A.rd (A.rd 1e-6 * b.c0) * theta) *
        F.sqrt (A.rd (chi / A.rd (b.mrc2 * F.pow t 3)))) * F.exp (A.rd (-3 * chi))))
  else .ok 0

/-- `_reactivity_bosch_hale` (`reactivity.py` 136-170) on an array, with rounding. -/
def reactivityBoschHaleR (A : Arith) (F : MathLib) (ts : List ℝ) (r : Reaction) : Except Err (List ℝ) :=
  match r.boschHale with
  | some b => if ts = [] then .error .valueError else ts.mapM ((b.lit A).entryR A F)
  | none => .error .reactivityError

end
end TNS
