import Verif.Model.Special
import Verif.Model.Workflow
/-
Many objects at once.  The pure models of the other files describe one source as a value.  Here the
objects live in a memory: numpy arrays are mutable and held by reference, profile objects are mutable
and shared, and `normalise_fusion_power` multiplies its arrays in place.  A *program* is a sequence of
calls made by the user on any of the objects.

Simplifications: a flux map is an immutable value (the code never writes to one; that the user
does not write into its arrays is assumed), negative array indices are left out, an object once
referenced stays in memory, and arrays allocated by a constructor that then raises are dropped.
-/

set_option autoImplicit false

namespace TNS
noncomputable section

/-- The arrays in memory, by address. For the arrays made in `main.py` 107-135. -/
abbrev Arrays := List (List (XF ℝ))

/-- A `TokamakNeutronSource` object as it is in memory (`main.py` 105-138): the attributes that are
arrays are addresses, `strength` is a dictionary of addresses, the rates are plain floats. -/
structure SourceRef where
  sourceType : List Reaction
  x : ℕ
  z : ℕ
  dVolume : ℕ
  cellSideLength : XF ℝ
  temperature : ℕ
  strength : Dict Reaction ℕ
  numReactions : Dict Reaction (XF ℝ)
  numNeutrons : Dict Reaction (XF ℝ)

/-- The contents of the array at an address. `main.py` 107-135. -/
def Arrays.read (m : Arrays) (a : ℕ) : List (XF ℝ) := (m[a]?).getD []

/-- What the user sees when reading the attributes of a source. `main.py` 105-138. -/
def SourceRef.view (m : Arrays) (s : SourceRef) : Source (XF ℝ) :=
  { sourceType := s.sourceType
    x := m.read s.x
    z := m.read s.z
    dVolume := m.read s.dVolume
    cellSideLength := s.cellSideLength
    temperature := m.read s.temperature
    strength := s.strength.map (fun p => (p.1, m.read p.2))
    numReactions := s.numReactions
    numNeutrons := s.numNeutrons }

/-- Everything in memory: arrays, profile objects, transport objects, flux maps, sources.
`main.py` 96-141, `transport.py` 61-65. -/
structure World where
  arrays : Arrays
  profiles : Heap
  transports : List TransportRef
  maps : List (FluxMapView ℝ)
  sources : List SourceRef

/-- The interpreter has just started. No counterpart in the code. -/
def World.empty : World := ⟨[], [], [], [], []⟩

/-- What the package provides: `pi`, the `total_energy` column (`reactions.py` 44-56) and
`reactivity` (`reactivity.py` 93-133). -/
structure Package where
  pi : ℝ
  energy : Reaction → ℝ
  reactivity : ReactivityMethod → Reaction → List ℝ → Except Err (List ℝ)

/-- The package with its own physics. `main.py` 122-131, `reactions.py` (`total_energy`). -/
def Package.tns (u : SI) (m : Masses ℝ) (c : ℝ) : Package :=
  { pi := Real.pi, energy := totalEnergy m c, reactivity := fun meth => TNS.reactivity u m meth }

/-- The result of a numpy expression is a new array. `main.py` 107-131. -/
def Arrays.new (m : Arrays) (a : List ℝ) : Arrays × ℕ := (m ++ [a.map XF.fin], m.length)

/-- One iteration of the loop of the constructor (`main.py` 122-135): the product
`n1_n2_sigma * self.d_volume` is a new array, its sum a float. -/
def SourceRef.addReaction (sv : Reaction → List ℝ → Except Err (List ℝ))
    (temp d t h dVolume : List ℝ) (st : Arrays × SourceRef) (r : Reaction) :
    Except Err (Arrays × SourceRef) := do
  let n1n2sigma ← densityWeightedReactivity sv temp d t h r
  let str := List.zipWith (· * ·) n1n2sigma dVolume
  let (m, a) := st.1.new str
  let num := str.sum
  .ok (m, { st.2 with
    strength := st.2.strength.set r a
    numReactions := st.2.numReactions.set r (.fin num)
    numNeutrons := st.2.numNeutrons.set r (.fin (num * (r.numNeutrons : ℝ))) })

/-- `calculate_total_fusion_power` (`main.py` 169-187) on the object in memory. -/
def SourceRef.totalPower (Q : Reaction → XF ℝ) (m : Arrays) (s : SourceRef) : XF ℝ :=
  (s.sourceType.map (fun r =>
    ((match s.strength.get? r with
      | some a => m.read a
      | none => []).map (· * Q r)).sum)).sum

/-- The loop body of `normalise_fusion_power` (`main.py` 208-211).  `self.strength[reaction] *= f`
multiplies the array in place and stores the same array again; the rates are floats, replaced in
their dictionaries. -/
def SourceRef.scaleReaction (f : XF ℝ) (st : Arrays × SourceRef) (r : Reaction) :
    Arrays × SourceRef :=
  match st.2.strength.get? r with
  | none => st
  | some a =>
    (st.1.modify a (fun l => l.map (· * f)),
      { st.2 with
        strength := st.2.strength.set r a
        numReactions := st.2.numReactions.modify r (· * f)
        numNeutrons := st.2.numNeutrons.modify r (· * f) })

/-- `normalise_fusion_power` (`main.py` 189-211) on the object in memory.  Nothing has been written
when the division raises. -/
def SourceRef.normalise (Q : Reaction → XF ℝ) (P : XF ℝ) (m : Arrays) (s : SourceRef) :
    Except Err (Arrays × SourceRef) :=
  if s.sourceType = [] then .error .zeroDivisionError
  else .ok (s.sourceType.foldl (SourceRef.scaleReaction (P / s.totalPower Q m)) (m, s))

/-- `TokamakNeutronSource.__init__` (`main.py` 96-141): every attribute array is a new one. -/
def SourceRef.init (pkg : Package) (m : Arrays) (tr : TransportView ℝ) (fm : FluxMapView ℝ)
    (arg : SourceArg) (L : ℝ) (power : Option ℝ) (method : ReactivityMethod) :
    Except Err (Arrays × SourceRef) := do
  let st ← parseSourceType arg
  let smp := sampleSpace2d pkg.pi fm.lcfsX fm.lcfsZ fm.inside fm.oX fm.oZ L
  let (m, ax) := m.new smp.x
  let (m, az) := m.new smp.z
  let (m, av) := m.new smp.dVolume
  let psiNorm := List.zipWith fm.psiNorm smp.x smp.z
  let temp ← psiNorm.mapM tr.temperature
  let (m, at_) := m.new temp
  let d ← psiNorm.mapM tr.deuterium
  let t ← psiNorm.mapM tr.tritium
  let h ← psiNorm.mapM tr.helium3
  let s0 : SourceRef :=
    { sourceType := st, x := ax, z := az, dVolume := av, cellSideLength := .fin L,
      temperature := at_, strength := [], numReactions := [], numNeutrons := [] }
  let s ← st.foldlM (SourceRef.addReaction (pkg.reactivity method) temp d t h smp.dVolume) (m, s0)
  match power with
  | none => .ok s
  | some P => SourceRef.normalise (fun r => .fin (pkg.energy r)) (.fin P) s.1 s.2

/-- The calls a user can make. `main.py` 96-211, `transport.py` 107-143, `profile.py` 24-26. -/
inductive Op
  /-- `DataProfile(...)`, `ParabolicProfile(...)`, `ParabolicPedestalProfile(...)`
  (`profile.py` 29-135). -/
  | newProfile (p : Profile)
  /-- `profile.set_scale(c)` (`profile.py` 24-26). -/
  | setScale (i : ℕ) (c : ℝ)
  /-- `TransportInformation.from_profiles` or `.from_jetto` (`transport.py` 67-105, 145-176): four new
  profile objects. -/
  | newTransport (tr : Transport)
  /-- `TransportInformation.from_parameterisations` (`transport.py` 107-143) on profile objects. -/
  | fromParameterisations (temp fuel : ℕ) (c : Composition ℝ)
  /-- Any of the `FluxMap` constructors (`flux.py` 689-880). -/
  | newMap (fm : FluxMapView ℝ)
  /-- `TokamakNeutronSource(transport, flux_map, ...)` (`main.py` 96-141). -/
  | construct (transport map : ℕ) (arg : SourceArg) (L : ℝ) (power : Option ℝ)
      (method : ReactivityMethod)
  /-- `source.normalise_fusion_power(P)` (`main.py` 189-211). -/
  | normalise (j : ℕ) (P : ℝ)
  /-- `source.strength[r][i] = v` written by the user. -/
  | write (j : ℕ) (r : Reaction) (i : ℕ) (v : XF ℝ)

/-- One call.  An unknown object, a missing key or an index out of range is an `indexError`.
`main.py` 96-211, `transport.py` 107-143, `profile.py` 24-26. -/
def World.exec (pkg : Package) (w : World) : Op → Except Err World
  | .newProfile p => .ok { w with profiles := w.profiles ++ [p] }
  | .setScale i c => .ok { w with profiles := w.profiles.setScale i c }
  | .newTransport tr =>
    let n := w.profiles.length
    .ok { w with
      profiles := w.profiles ++ [tr.deuterium, tr.tritium, tr.helium3, tr.temperature]
      transports := w.transports ++ [⟨n, n + 1, n + 2, n + 3⟩] }
  | .fromParameterisations temp fuel c =>
    match TNS.fromParameterisations w.profiles temp fuel c with
    | none => .error .indexError
    | some (h, t) => .ok { w with profiles := h, transports := w.transports ++ [t] }
  | .newMap fm => .ok { w with maps := w.maps ++ [fm] }
  | .construct t k arg L power method =>
    match w.transports[t]?.bind (TransportRef.read w.profiles), w.maps[k]? with
    | some tr, some fm => do
      let s ← SourceRef.init pkg w.arrays tr.view fm arg L power method
      .ok { w with arrays := s.1, sources := w.sources ++ [s.2] }
    | _, _ => .error .indexError
  | .normalise j P =>
    match w.sources[j]? with
    | none => .error .indexError
    | some s => do
      let s' ← SourceRef.normalise (fun r => .fin (pkg.energy r)) (.fin P) w.arrays s
      .ok { w with arrays := s'.1, sources := w.sources.set j s'.2 }
  | .write j r i v =>
    match (w.sources[j]?).bind (fun s => s.strength.get? r) with
    | none => .error .indexError
    | some a =>
      if i < (w.arrays.read a).length then
        .ok { w with arrays := w.arrays.modify a (fun l => l.set i v) }
      else .error .indexError

/-- A call whose exception, if any, the user catches. No counterpart in the code. -/
def World.step (pkg : Package) (w : World) (op : Op) : World :=
  match w.exec pkg op with
  | .ok w' => w'
  | .error _ => w

/-- A program. No counterpart in the code. -/
def World.run (pkg : Package) (ops : List Op) : World := ops.foldl (World.step pkg) World.empty

/-- What the user sees of the source that was built as number `j`. `main.py` 105-138. -/
def World.source? (w : World) (j : ℕ) : Option (Source (XF ℝ)) :=
  (w.sources[j]?).map (SourceRef.view w.arrays)

end
end TNS
