import Verif.Model.RoundedReactivity
/-
The reactivity from cross sections with rounding: loading the file, interpolation, the energy grid and the
trapezoidal rule, operation by operation.  See `Verif.Model.Rounded` and `Verif.Model.RoundedReactivity`.
-/

set_option autoImplicit false

namespace TNS
noncomputable section

/-- `ReactionCrossSection.__init__` (`reactivity_data.py` 40-55) with rounding, on the decimal numbers of the file.
The constants in `u` and the masses are the floats the program uses. -/
def CrossSection.loadR (A : Arith) (u : SI) (m1 m2 : ℝ) (rows : List (ℝ × ℝ)) : CrossSection :=
  { reducedMass := A.rd (A.rd (A.rd (m1 * m2) / A.rd (m1 + m2)) * u.amu)
    table := rows.map fun p =>
      (A.rd (A.rd (A.rd p.1 * A.rd (m2 / A.rd (m1 + m2))) * 1000), A.rd (A.rd p.2 * A.rd 1e-28)) }

/-- The `cross_section` column of the enum tables (`reactions.py` 91, 99, 107, 120, 128) with the files of
`reactivity_data.py` 80-84, with rounding. -/
def Reaction.crossSectionR (A : Arith) (u : SI) (m : Masses ℝ) : Reaction → CrossSection
  | .n .D_T => .loadR A u m.D m.T (genfromtxt Data.dtRows)
  | .n .D_D => .loadR A u m.D m.D (genfromtxt Data.ddnRows)
  | .n .T_T => .loadR A u m.T m.T (genfromtxt Data.ttRows)
  | .a .D_D => .loadR A u m.D m.D (genfromtxt Data.ddpRows)
  | .a .D_He3 => .loadR A u m.D m.He3 (genfromtxt Data.dhe3Rows)

open Classical in
/-- `np.interp` (numpy `arr_interp`) on a sorted table: the value of the row itself at a row, otherwise the rounded
slope times the rounded distance to the row on the left. `reactivity_data.py` 55, 59. -/
def npInterpR (A : Arith) : List (ℝ × ℝ) → ℝ → ℝ
  | [], _ => 0
  | [p], _ => p.2
  | p :: q :: l, x =>
    if x < q.1 then
      (if x ≤ p.1 then p.2
       else A.rd (A.rd (A.rd (A.rd (q.2 - p.2) / A.rd (q.1 - p.1)) * A.rd (x - p.1)) + p.2))
    else npInterpR A (q :: l) x

open Classical in
/-- `interp1d(energy, sigma)(x)` (`reactivity_data.py` 55, 59), see `interp1d`. -/
def interp1dR (A : Arith) (table : List (ℝ × ℝ)) (x : ℝ) : Except Err ℝ :=
  let t := table.mergeSort (fun p q => decide (p.1 ≤ q.1))
  match t.head?, t.getLast? with
  | some a, some b => if x < a.1 ∨ b.1 < x then .error .valueError else .ok (npInterpR A t x)
  | _, _ => .error .valueError

/-- `np.logspace(0, 3, 1000)` (`reactivity.py` 257): `np.linspace` multiplies `arange` by the rounded step, adds the
start and overwrites the last entry with the stop; then a power of ten. -/
def tGridKeVR (A : Arith) (F : MathLib) : List ℝ :=
  (List.range 1000).map fun i : ℕ =>
    F.pow 10 (if i = 999 then 3 else A.rd (A.rd ((i : ℝ) * A.rd (3 / 999)) + 0))

/-- The terms added by `trapezoid(y, x)` (`tools.py` 27; numpy: `(d * (y[1:] + y[:-1]) / 2.0).sum()`) on the list of
pairs `(x, y)`, with rounding. -/
def trapezoidTermsR (A : Arith) : List (ℝ × ℝ) → List ℝ
  | [] => []
  | [_] => []
  | p :: q :: l => A.rd (A.rd (A.rd (q.1 - p.1) * A.rd (q.2 + p.2)) / 2) :: trapezoidTermsR A (q :: l)

/-- `raw_uc(x, "keV", "J")` (`constants.py` 248-274, `reactivity.py` 255, 258): one multiplication. -/
def keVToJR (A : Arith) (u : SI) (x : ℝ) : ℝ := A.rd (x * u.keV)

/-- `factor` (`reactivity.py` 260); `pi` stands for `np.pi`, `tj` is the temperature in J. -/
def xsFactorR (A : Arith) (F : MathLib) (pi mu tj : ℝ) : ℝ :=
  A.rd (A.rd (4 / F.sqrt (A.rd (A.rd (2 * pi) * mu))) / F.pow tj 1.5)

/-- One entry of `integrand` (`reactivity.py` 262), `e` the energy and `tj` the temperature in J. -/
def integrandR (A : Arith) (F : MathLib) (factor tj s e : ℝ) : ℝ :=
  A.rd (A.rd (A.rd (factor * s) * e) * F.exp (A.rd (-e / tj)))

open Classical in
/-- One entry of the result of `_reactivity_from_xs` (`reactivity.py` 254-264), given the cross section on the grid;
see `CrossSection.entry`. -/
def CrossSection.entryR (A : Arith) (F : MathLib) (pi : ℝ) (u : SI) (xs : CrossSection) (sigma : List ℝ) (t : ℝ) :
    Except Err ℝ :=
  let tj := keVToJR A u t
  if tj ≤ 0 then .error .nonFinite
  else .ok (A.npSum (trapezoidTermsR A (List.zipWith
    (fun g s => (keVToJR A u g, integrandR A F (xsFactorR A F pi xs.reducedMass tj) tj s (keVToJR A u g)))
    (tGridKeVR A F) sigma)))

/-- `_reactivity_from_xs` (`reactivity.py` 234-265) on an array, with rounding. -/
def CrossSection.reactivityR (A : Arith) (F : MathLib) (pi : ℝ) (u : SI) (xs : CrossSection) (ts : List ℝ) :
    Except Err (List ℝ) := do
  let sigma ← (tGridKeVR A F).mapM (interp1dR A xs.table)
  ts.mapM (xs.entryR A F pi u sigma)

/-- The cross-section reactivity of a reaction (`reactivity.py` 120, 129, 131) with rounding. -/
def reactivityXsR (A : Arith) (F : MathLib) (pi : ℝ) (u : SI) (m : Masses ℝ) (r : Reaction) (ts : List ℝ) :
    Except Err (List ℝ) :=
  (r.crossSectionR A u m).reactivityR A F pi u ts

end
end TNS
