import Verif.Model.Mcnp
/-
A small reading of the SDEF cards, as MCNP samples them: `SI H`/`SP D` is a histogram (the first
SP entry belongs to no bin, probabilities are normalised by their sum); the extent distribution is
chosen by the radial bin through the DS4 card.
-/

set_option autoImplicit false

namespace TNS.Spec
variable {K : Type} [Field K] [LinearOrder K]

/-- One bin of a histogram: edges and normalised probability. -/
structure HBin (K : Type) where
  lo : K
  hi : K
  prob : K
  deriving DecidableEq

/-- A ring-shaped source bin: radial and vertical extent in cm and probability. -/
structure SBin (K : Type) where
  rLo : K
  rHi : K
  zLo : K
  zHi : K
  prob : K
  deriving DecidableEq

/-- The bins of an `SI H` / `SP D` pair. -/
def histogram (si sp : List K) : List (HBin K) :=
  List.zipWith (fun (e : K × K) p => ⟨e.1, e.2, p / sp.sum⟩) (List.zip si si.tail) sp.tail

/-- The bins of the two-stage distribution of an SDEF file, in file order. -/
def sdefBins (c : SdefCards K) : List (SBin K) :=
  (List.zip (histogram c.si3 c.sp3) c.ds4).flatMap (fun q =>
    match c.vertical.find? (fun v => v.1 = q.2) with
    | none => []
    | some v => (histogram v.2.1 v.2.2).map (fun b =>
        ⟨q.1.lo, q.1.hi, b.lo, b.hi, q.1.prob * b.prob⟩))

/-- The square cells (in cm) of side `L` (m) around the centres `(r, z)` (m), each with its share of
the total strength: what an SDEF file should say. -/
def cellBins (r z : List K) (L : K) (strength : List K) : List (SBin K) :=
  (List.zip r (List.zip z strength)).map (fun q =>
    ⟨100 * (q.1 - L / 2), 100 * (q.1 + L / 2), 100 * (q.2.1 - L / 2), 100 * (q.2.1 + L / 2),
      q.2.2 / strength.sum⟩)

end TNS.Spec
