import Verif.Model.World
/-
Specification vocabulary for programs working on several objects: the life of one source, told without
memory, addresses or other objects.
-/

set_option autoImplicit false

namespace TNS.Spec
noncomputable section

/-- What can be asked of a source after its construction. -/
inductive Call
  | normalise (P : ℝ)
  | write (r : Reaction) (i : ℕ) (v : XF ℝ)

/-- The effect of a call on a source regarded as a plain value: multiply every strength and rate by
(requested power / power), or replace one cell of one channel.  Calls that raise change nothing. -/
def Call.apply (energy : Reaction → ℝ) (s : Source (XF ℝ)) : Call → Source (XF ℝ)
  | .normalise P =>
    match s.normaliseRaw (fun r => .fin (energy r)) (.fin P) with
    | .ok s' => s'
    | .error _ => s
  | .write r i v => { s with strength := s.strength.modify r (fun l => l.set i v) }

/-- The calls in a program that are made on source number `j`. -/
def callsOn (j : ℕ) : List Op → List Call
  | [] => []
  | .normalise k P :: ops => if k = j then .normalise P :: callsOn j ops else callsOn j ops
  | .write k r i v :: ops => if k = j then .write r i v :: callsOn j ops else callsOn j ops
  | _ :: ops => callsOn j ops

/-- The transport object number `t` of a world with its profiles as they are now. -/
def transportNow (w : World) (t : ℕ) : Option Transport :=
  w.transports[t]?.bind (TransportRef.read w.profiles)

/-- The source as a value, computed from plasma, flux map and arguments alone. -/
def built (pkg : Package) (tr : Transport) (fm : FluxMapView ℝ) (arg : SourceArg) (L : ℝ)
    (method : ReactivityMethod) : Except Err (Source ℝ) :=
  Source.init pkg.pi pkg.energy (pkg.reactivity method) tr.view fm arg L none

end
end TNS.Spec
