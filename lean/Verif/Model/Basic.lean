/-
Basic vocabulary of the model: Python exceptions, insertion-ordered dictionaries.
-/

set_option autoImplicit false

namespace TNS

/-- The exception classes that the modelled code can raise, as values.
`reactivityError`, `energySpectrumError`, `fluxSurfaceError`, `tnsError` are the package's own
(`error.py` 12-38); the others are the Python built-ins raised by the interpreter, numpy or scipy.
Simplification: messages are dropped. -/
inductive Err
  | tnsError
  | reactivityError
  | energySpectrumError
  | fluxSurfaceError
  | valueError
  | zeroDivisionError
  | notImplementedError
  | indexError
  | keyError
  /-- Not an exception: marks the points where the Python code goes on computing with `inf`/`nan`
  because of a division by zero.  The extended-number model (`Verif.Model.Special`) says what it
  computes there. -/
  | nonFinite
  deriving DecidableEq, Repr

/-- Python's `dict`: keys in insertion order (used in `main.py` 119-121 and
`openmc_interface.py` 155-159). -/
abbrev Dict (α β : Type) := List (α × β)

namespace Dict
variable {α β γ : Type} [DecidableEq α]

/-- `d[k] = v`: replace in place if present, append otherwise. `main.py` 131-135. -/
def set (d : Dict α β) (k : α) (v : β) : Dict α β :=
  if d.any (fun p => p.1 = k) then d.map (fun p => if p.1 = k then (k, v) else p)
  else d ++ [(k, v)]

/-- `d.get(k)`. `main.py` 165-166. -/
def get? (d : Dict α β) (k : α) : Option β := (d.find? (fun p => p.1 = k)).map Prod.snd

/-- `d.get(k, default)`; also used for `d[k]` where the key is present (see `Source.WF`, which
shows the `KeyError` branch to be unreachable). `main.py` 165-166, 184. -/
def getD (d : Dict α β) (k : α) (dflt : β) : β := (d.get? k).getD dflt

/-- `d[k] *= c` and friends: update the value of a present key. `main.py` 209-211. -/
def modify (d : Dict α β) (k : α) (f : β → β) : Dict α β :=
  d.map (fun p => if p.1 = k then (p.1, f p.2) else p)

/-- `list(d.keys())`. `mcnp_interface.py` 66, `openmc_interface.py` 157. -/
def keys (d : Dict α β) : List α := d.map Prod.fst

/-- `list(d.values())`. `main.py` 148. -/
def values (d : Dict α β) : List β := d.map Prod.snd

end Dict
end TNS
