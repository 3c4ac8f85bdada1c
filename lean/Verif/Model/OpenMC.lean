import Verif.Model.Special
/-
Model of `tokamak_neutron_source/openmc_interface.py` and of `to_openmc_source` (`main.py` 213-242).
The OpenMC classes are plain records of their constructor arguments.
-/

set_option autoImplicit false

namespace TNS

/-- The `IndependentSource` built by `make_openmc_ring_source` (`openmc_interface.py` 98-114):
`space` is `CylindricalIndependent` with a linear-linear tabular radial density given by its two end
points and values, uniform angle and uniform height; `energy` is the `Mixture` as a list of
(probability, distribution).  Lengths in cm.  `angle=Isotropic()`, `phi=Uniform(0, 2 pi)` and
`origin` are constants and left out. -/
structure Ring (K E : Type) where
  rLo : K
  rHi : K
  pLo : K
  pHi : K
  zLo : K
  zHi : K
  energy : List (K × E)
  strength : XF K

/-- A Python number used as a divisor: the integer `0` (result of `sum` over an empty dict), for
which division raises, or a numpy float. `openmc_interface.py` 174-176, 183; `main.py` 148. -/
inductive PyNum (K : Type)
  | intZero
  | float (a : XF K)

section
variable {K E : Type} [Field K] [LinearOrder K]

/-- `a / b`. `openmc_interface.py` 176, 183. -/
def pyDiv (a : XF K) : PyNum K → Except Err (XF K)
  | .intZero => .error .zeroDivisionError
  | .float b => .ok (a / b)

/-- `make_openmc_ring_source` (`openmc_interface.py` 65-115); `none` is Python's `None`.
`raw_uc(.., "m", "cm")` is multiplication by 100 (see `rawUc` in `Verif.Model.Constants`). -/
def ringSource (r z half : K) (energy : List (K × E)) (strength : XF K) : Option (Ring K E) :=
  if strength.gt 0 then
    let rLo := (r - half) * 100
    let rHi := (r + half) * 100
    some
      { rLo := rLo, rHi := rHi
        pLo := rLo / [rLo, rHi].sum, pHi := rHi / [rLo, rHi].sum
        zLo := (z - half) * 100, zHi := (z + half) * 100
        energy := energy, strength := strength }
  else none

/-- `n_strength` (`openmc_interface.py` 155-159). -/
def nStrength (strength : Dict Reaction (List K)) : Dict Reaction (List K) :=
  (strength.filter (fun p => p.1.isNeutronic)).map
    (fun p => (p.1, p.2.map (· * (p.1.numNeutrons : K))))

/-- The inner loop over the neutronic reactions for cell `i` (`openmc_interface.py` 164-172):
the pairs (weight, distribution).  `spectrum` is `get_neutron_energy_spectrum` for the chosen
method, which may raise; `s[i]` raises `IndexError` if the array is too short. -/
def cellWeights (spectrum : Reaction → K → Except Err E) (ti : K) (i : ℕ) :
    Dict Reaction (List K) → Except Err (List (K × E))
  | [] => .ok []
  | (reaction, s) :: rest =>
    match s[i]? with
    | none => .error .indexError
    | some si =>
      if 0 < si then do
        let dist ← spectrum reaction ti
        let l ← cellWeights spectrum ti i rest
        .ok ((si, dist) :: l)
      else cellWeights spectrum ti i rest

/-- One iteration of the loop over cells (`openmc_interface.py` 163-186).  For an empty list of
weights `np.array([]) / 0` is the empty array. -/
def cellSource (spectrum : Reaction → K → Except Err E) (half : K) (rate : PyNum K)
    (ns : Dict Reaction (List K)) (c : (K × K × K) × ℕ) : Except Err (Option (Ring K E)) := do
  let w ← cellWeights spectrum c.1.2.2 c.2 ns
  let localStrength := (w.map Prod.fst).sum
  let mixture := w.map (fun p => (p.1 / localStrength, p.2))
  let strength ← pyDiv (.fin localStrength) rate
  .ok (ringSource c.1.1 c.1.2.1 half mixture strength)

/-- `make_openmc_full_combined_source` (`openmc_interface.py` 118-188). -/
def combinedSource (spectrum : Reaction → K → Except Err E) (r z : List K) (cellSideLength : K)
    (temperature : List K) (strength : Dict Reaction (List K)) (rate : PyNum K) :
    Except Err (List (Ring K E)) := do
  let ns := nStrength strength
  let half := cellSideLength / 2
  let l ← ((List.zip r (List.zip z temperature)).zipIdx).mapM (cellSource spectrum half rate ns)
  .ok (l.filterMap id)

/-- `source_rate` as a Python number: `sum` of an empty dict is the integer 0 (`main.py` 148). -/
def Source.pyRate (s : Source K) : PyNum K :=
  if s.numNeutrons = [] then .intZero else .float (.fin s.sourceRate)

/-- `to_openmc_source` (`main.py` 213-242). -/
def Source.toOpenmc (spectrum : Reaction → K → Except Err E) (s : Source K) :
    Except Err (List (Ring K E)) :=
  combinedSource spectrum s.x s.z s.cellSideLength s.temperature s.strength s.pyRate

end
end TNS
