import Verif.Model.OpenMC
import Verif.Spec.Source
/-
Specification of the OpenMC export in terms of the public attributes of the source.
-/

set_option autoImplicit false

namespace TNS.Spec
variable {K : Type} [Field K]

/-- Strength (reactions per second) of reaction `r` in cell `i`; 0 if there is no such entry. -/
def cellStrength (s : Source K) (r : Reaction) (i : ℕ) : K :=
  ((s.strength.getD r [])[i]?).getD 0

/-- Neutrons per second emitted by cell `i`. -/
def emission (s : Source K) (i : ℕ) : K :=
  (s.sourceType.map (fun r => (neutronYield r : K) * cellStrength s r i)).sum

/-- Neutrons per second emitted by the whole source through reaction `r`. -/
def channelEmission (s : Source K) (r : Reaction) : K :=
  (neutronYield r : K) * ((List.range s.x.length).map (fun i => cellStrength s r i)).sum

/-- The energy mixture of cell `i`, at ion temperature `t`: one entry per reaction emitting neutrons
there, weighted by its share of the cell's neutrons, with that reaction's spectrum `sp r t`. -/
def mixtureAt {E : Type} [LinearOrder K] (s : Source K) (sp : Reaction → K → E) (i : ℕ) (t : K) :
    List (K × E) :=
  (s.sourceType.filter (fun r => decide (0 < (neutronYield r : K) * cellStrength s r i))).map
    (fun r => ((neutronYield r : K) * cellStrength s r i / emission s i, sp r t))

/-- The OpenMC source expected for cell `i` with centre `(x, z)` and temperature `t`: the cell's
extent in cm, radial density values proportional to the radius, strength emission over source rate,
and the cell's energy mixture. -/
def ringAt {E : Type} [LinearOrder K] (s : Source K) (sp : Reaction → K → E) (i : ℕ) (x z t : K) :
    Ring K E :=
  let half := s.cellSideLength / 2
  { rLo := 100 * (x - half)
    rHi := 100 * (x + half)
    pLo := (x - half) / (2 * x)
    pHi := (x + half) / (2 * x)
    zLo := 100 * (z - half)
    zHi := 100 * (z + half)
    energy := mixtureAt s sp i t
    strength := XF.fin (emission s i / s.sourceRate) }

end TNS.Spec
