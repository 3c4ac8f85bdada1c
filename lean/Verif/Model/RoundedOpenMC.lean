import Verif.Model.Rounded
import Verif.Model.OpenMC
/-
The arithmetic of the OpenMC export with rounding, see `Verif.Model.Rounded`.
-/

set_option autoImplicit false

namespace TNS
noncomputable section

/-- `n_strength` (`openmc_interface.py` 155-159). -/
def nStrengthR (A : Arith) (strength : Dict Reaction (List ℝ)) : Dict Reaction (List ℝ) :=
  (strength.filter (fun p => p.1.isNeutronic)).map
    (fun p => (p.1, p.2.map (fun x => A.rd (x * (p.1.numNeutrons : ℝ)))))

open Classical in
/-- `make_openmc_ring_source` (`openmc_interface.py` 98-115).  `raw_uc(.., "m", "cm")` is one rounded
multiplication by 100. -/
def ringSourceR {E : Type} (A : Arith) (r z half : ℝ) (energy : List (ℝ × E)) (strength : ℝ) :
    Option (Ring ℝ E) :=
  if 0 < strength then
    let rLo := A.rd (A.rd (r - half) * 100)
    let rHi := A.rd (A.rd (r + half) * 100)
    some
      { rLo := rLo, rHi := rHi
        pLo := A.rd (rLo / A.pySum [rLo, rHi]), pHi := A.rd (rHi / A.pySum [rLo, rHi])
        zLo := A.rd (A.rd (z - half) * 100), zHi := A.rd (A.rd (z + half) * 100)
        energy := energy, strength := .fin strength }
  else none

/-- One iteration of the loop over cells (`openmc_interface.py` 163-186). -/
def cellSourceR {E : Type} (A : Arith) (spectrum : Reaction → ℝ → Except Err E) (half rate : ℝ)
    (ns : Dict Reaction (List ℝ)) (c : (ℝ × ℝ × ℝ) × ℕ) : Except Err (Option (Ring ℝ E)) := do
  let w ← cellWeights spectrum c.1.2.2 c.2 ns
  let localStrength := A.pySum (w.map Prod.fst)
  let mixture := w.map (fun p => (A.rd (p.1 / localStrength), p.2))
  .ok (ringSourceR A c.1.1 c.1.2.1 half mixture (A.rd (localStrength / rate)))

/-- `source_rate` (`main.py` 143-148). -/
def Source.sourceRateR (A : Arith) (s : Source ℝ) : ℝ := A.pySum s.numNeutrons.values

open Classical in
/-- `to_openmc_source` (`main.py` 213-242, `openmc_interface.py` 118-188).  A computed source rate of 0, where
the code divides by zero, is marked `nonFinite`. -/
def Source.toOpenmcR {E : Type} (A : Arith) (spectrum : Reaction → ℝ → Except Err E) (s : Source ℝ) :
    Except Err (List (Ring ℝ E)) := do
  let ns := nStrengthR A s.strength
  let half := A.rd (s.cellSideLength / 2)
  if s.sourceRateR A = 0 then .error .nonFinite
  else
    let l ← ((List.zip s.x (List.zip s.z s.temperature)).zipIdx).mapM
      (cellSourceR A spectrum half (s.sourceRateR A) ns)
    .ok (l.filterMap id)

end
end TNS
