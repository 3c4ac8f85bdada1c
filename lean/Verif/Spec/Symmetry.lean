import Verif.Model.Workflow
/-
Specification vocabulary for C75: plasmas, flux maps and sources that are moved along `z`, enlarged,
or made denser.
-/

set_option autoImplicit false

namespace TNS.Spec

section
variable {K : Type} [Field K]

/-- Everything moved by `d` along `z`. -/
def moveMap (d : K) (fm : FluxMapView K) : FluxMapView K :=
  { fm with
    lcfsZ := fm.lcfsZ.map (· + d)
    inside := fun p => fm.inside (p.1, p.2 - d)
    oZ := fm.oZ + d
    psiNorm := fun x z => fm.psiNorm x (z - d) }

/-- Everything enlarged by the factor `c` about the origin. -/
def enlargeMap (c : K) (fm : FluxMapView K) : FluxMapView K :=
  { lcfsX := fm.lcfsX.map (c * ·)
    lcfsZ := fm.lcfsZ.map (c * ·)
    inside := fun p => fm.inside (p.1 / c, p.2 / c)
    oX := c * fm.oX
    oZ := c * fm.oZ
    psiNorm := fun x z => fm.psiNorm (x / c) (z / c) }

/-- All densities multiplied by `n`. -/
def denser (n : K) (tr : TransportView K) : TransportView K :=
  { tr with
    deuterium := fun p => (tr.deuterium p).map (n * ·)
    tritium := fun p => (tr.tritium p).map (n * ·)
    helium3 := fun p => (tr.helium3 p).map (n * ·) }

/-- A source with positions and cell side multiplied by `c`, volumes by `v`, and all strengths and
rates by `k`. -/
def stretch (c v k : K) (s : Source K) : Source K :=
  { s with
    x := s.x.map (c * ·)
    z := s.z.map (c * ·)
    dVolume := s.dVolume.map (v * ·)
    cellSideLength := c * s.cellSideLength
    strength := s.strength.map fun p => (p.1, p.2.map (k * ·))
    numReactions := s.numReactions.map fun p => (p.1, k * p.2)
    numNeutrons := s.numNeutrons.map fun p => (p.1, k * p.2) }

/-- A source moved by `d` along `z`. -/
def move (d : K) (s : Source K) : Source K := { s with z := s.z.map (· + d) }

/-- Plasma shape parameters of the moved plasma. -/
def moveInfo (d : K) (l : LCFSInfo K) : LCFSInfo K := { l with z0 := l.z0 + d }

/-- Plasma shape parameters of the enlarged plasma. -/
def enlargeInfo (c : K) (l : LCFSInfo K) : LCFSInfo K :=
  { l with r0 := c * l.r0, z0 := c * l.z0, shift := c * l.shift, minor := c * l.minor }

end

/-- The moved flux map data. -/
noncomputable def moveParam (d : ℝ) (fm : ParamMap) : ParamMap :=
  { fm with
    lcfs := fm.lcfs.map fun p => (p.1, p.2 + d)
    oPoint := { fm.oPoint with z := fm.oPoint.z + d }
    pts := fm.pts.map fun p => (p.1, p.2 + d) }

/-- The enlarged flux map data. -/
noncomputable def enlargeParam (c : ℝ) (fm : ParamMap) : ParamMap :=
  { fm with
    lcfs := fm.lcfs.map fun p => (c * p.1, c * p.2)
    oPoint := { fm.oPoint with x := c * fm.oPoint.x, z := c * fm.oPoint.z }
    pts := fm.pts.map fun p => (c * p.1, c * p.2) }

end TNS.Spec
