import Verif.Model.Source
/-
IEEE special values: exact numbers extended by `inf`, `-inf` and `nan`, with numpy's arithmetic on
them.  Used to say what the code computes after a division by zero (numpy floats do not raise).
Simplifications: finite numbers are exact (no rounding, no overflow) and there is no negative zero
(a division by zero takes the sign of the numerator).
-/

set_option autoImplicit false

namespace TNS

/-- A numpy float64 with exact finite part. -/
inductive XF (K : Type)
  | fin (a : K)
  | pinf
  | ninf
  | nan
  deriving DecidableEq, Repr

namespace XF
variable {K : Type}

/-- `np.isfinite`. Not called by the package; states C07. -/
def isFinite : XF K → Bool
  | .fin _ => true
  | _ => false

variable [Field K] [LinearOrder K]

instance : Zero (XF K) := ⟨.fin 0⟩
instance : One (XF K) := ⟨.fin 1⟩

/-- The infinity with the sign of `a`, `nan` for `a = 0` (this is `a * inf` and `a / 0`).
IEEE 754, for `main.py` 206-211. -/
def signedInf (a : K) : XF K := if a = 0 then .nan else if 0 < a then .pinf else .ninf

/-- IEEE 754 negation, for `main.py` 206-211. -/
def neg : XF K → XF K
  | .fin a => .fin (-a)
  | .pinf => .ninf
  | .ninf => .pinf
  | .nan => .nan

/-- IEEE 754 addition (`inf - inf` is `nan`), for `main.py` 182-187. -/
def add : XF K → XF K → XF K
  | .fin a, .fin b => .fin (a + b)
  | .nan, _ => .nan
  | _, .nan => .nan
  | .pinf, .ninf => .nan
  | .ninf, .pinf => .nan
  | .pinf, _ => .pinf
  | _, .pinf => .pinf
  | .ninf, _ => .ninf
  | _, .ninf => .ninf

/-- IEEE 754 multiplication, for `main.py` 209-211. -/
def mul : XF K → XF K → XF K
  | .fin a, .fin b => .fin (a * b)
  | .nan, _ => .nan
  | _, .nan => .nan
  | .fin a, .pinf => signedInf a
  | .fin a, .ninf => neg (signedInf a)
  | .pinf, .fin a => signedInf a
  | .ninf, .fin a => neg (signedInf a)
  | .pinf, .pinf => .pinf
  | .ninf, .ninf => .pinf
  | .pinf, .ninf => .ninf
  | .ninf, .pinf => .ninf

/-- IEEE 754 division, for `main.py` 206. -/
def div : XF K → XF K → XF K
  | .fin a, .fin b => if b = 0 then signedInf a else .fin (a / b)
  | .nan, _ => .nan
  | _, .nan => .nan
  | .fin _, .pinf => .fin 0
  | .fin _, .ninf => .fin 0
  | .pinf, .fin b => if 0 ≤ b then .pinf else .ninf
  | .ninf, .fin b => if 0 ≤ b then .ninf else .pinf
  | .pinf, .pinf => .nan
  | .pinf, .ninf => .nan
  | .ninf, .pinf => .nan
  | .ninf, .ninf => .nan

instance : Neg (XF K) := ⟨neg⟩
instance : Add (XF K) := ⟨add⟩
instance : Mul (XF K) := ⟨mul⟩
instance : Div (XF K) := ⟨div⟩

/-- `a > b` on floats: false as soon as one side is `nan`. `openmc_interface.py` 98, 168. -/
def gt : XF K → XF K → Bool
  | .fin a, .fin b => decide (b < a)
  | .nan, _ => false
  | _, .nan => false
  | .pinf, .pinf => false
  | .pinf, _ => true
  | .ninf, _ => false
  | .fin _, .pinf => false
  | .fin _, .ninf => true

@[simp] theorem fin_add (a b : K) : (XF.fin a + XF.fin b : XF K) = .fin (a + b) := rfl
@[simp] theorem fin_mul (a b : K) : (XF.fin a * XF.fin b : XF K) = .fin (a * b) := rfl
@[simp] theorem zero_eq : (0 : XF K) = .fin 0 := rfl
theorem fin_div (a b : K) (h : b ≠ 0) : (XF.fin a / XF.fin b : XF K) = .fin (a / b) := by
  show div _ _ = _; simp [div, h]
theorem fin_div_zero (a : K) : (XF.fin a / XF.fin 0 : XF K) = signedInf a := by
  show div _ _ = _; simp [div]

/-- Sum of an array of finite numbers. -/
theorem sum_fin (l : List K) : (l.map XF.fin).sum = XF.fin l.sum := by
  induction l with
  | nil => rfl
  | cons a l ih => rw [List.map_cons, List.sum_cons, ih, List.sum_cons, fin_add]

end XF

/-- The source as numpy sees it: finite numbers embedded in the extended ones. `main.py` 96-141. -/
def Source.toXF {K : Type} (s : Source K) : Source (XF K) :=
  { sourceType := s.sourceType
    x := s.x.map .fin
    z := s.z.map .fin
    dVolume := s.dVolume.map .fin
    cellSideLength := .fin s.cellSideLength
    temperature := s.temperature.map .fin
    strength := s.strength.map (fun p => (p.1, p.2.map .fin))
    numReactions := s.numReactions.map (fun p => (p.1, .fin p.2))
    numNeutrons := s.numNeutrons.map (fun p => (p.1, .fin p.2)) }

end TNS
