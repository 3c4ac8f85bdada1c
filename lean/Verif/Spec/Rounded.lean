import Verif.Model.Rounded
import Mathlib.Data.Int.Log
import Mathlib.Data.Real.Archimedean
import Mathlib.Algebra.Order.Round
/-
Specification vocabulary for floating point arithmetic: the standard model (every operation has a
relative error of at most `u`), sums in any order and with any bracketing, and as an instance
rounding to 53 binary digits.
-/

set_option autoImplicit false

namespace TNS.Spec
noncomputable section

/-- A way of bracketing a sum. -/
inductive SumTree
  | leaf (x : ℝ)
  | node (a b : SumTree)

/-- The numbers added. -/
def SumTree.leaves : SumTree → List ℝ
  | .leaf x => [x]
  | .node a b => a.leaves ++ b.leaves

/-- The computed sum: every addition is rounded. -/
def SumTree.eval (rd : ℝ → ℝ) : SumTree → ℝ
  | .leaf x => x
  | .node a b => rd (a.eval rd + b.eval rd)

/-- `f` adds up its argument in some order and with some bracketing, which may depend on the
argument; the empty sum is 0. -/
def AddsUp (rd : ℝ → ℝ) (f : List ℝ → ℝ) : Prop :=
  f [] = 0 ∧ ∀ l, l ≠ [] → ∃ t : SumTree, t.leaves.Perm l ∧ f l = t.eval rd

/-- The standard model of floating point arithmetic with unit roundoff `u` (no overflow or
underflow). -/
structure StandardModel (A : Arith) (u : ℝ) : Prop where
  u_nonneg : 0 ≤ u
  u_lt_one : u < 1
  rel : ∀ x, |A.rd x - x| ≤ u * |x|
  npSum : AddsUp A.rd A.npSum
  pySum : AddsUp A.rd A.pySum

/-- Rounding to 53 significant binary digits (binary64 with an unbounded exponent). -/
def round53 (x : ℝ) : ℝ :=
  (round (x / (2 : ℝ) ^ (Int.log 2 |x| - 52)) : ℝ) * (2 : ℝ) ^ (Int.log 2 |x| - 52)

/-- Adding from left to right. -/
def leftSum (rd : ℝ → ℝ) : List ℝ → ℝ
  | [] => 0
  | a :: l => l.foldl (fun s x => rd (s + x)) a

/-- binary64 with sums from left to right. -/
def binary64 : Arith := ⟨round53, leftSum round53, leftSum round53⟩

/-- Exact arithmetic. -/
def exactArith : Arith := ⟨id, List.sum, List.sum⟩

/-- The states of a source object in rounded arithmetic after `j` normalisations to positive powers. -/
inductive ReachableR (A : Arith) (Q : Reaction → ℝ) : ℕ → Source ℝ → Prop
  | constructed (arg : SourceArg) (st : List Reaction) (hst : parseSourceType arg = .ok st)
      (x z vol temp d t h : List ℝ) (L : ℝ) (sv : Reaction → List ℝ)
      (hvol : ∀ a ∈ vol, 0 ≤ a) (hd : ∀ a ∈ d, 0 ≤ a) (ht : ∀ a ∈ t, 0 ≤ a) (hh : ∀ a ∈ h, 0 ≤ a)
      (hsv : ∀ r, ∀ a ∈ sv r, 0 ≤ a) :
      ReachableR A Q 0 (Source.initR A st x z vol temp d t h L sv)
  | normalised {j s P s'} (hs : ReachableR A Q j s) (hP : 0 < P) (h : s.normaliseR A Q P = .ok s') :
      ReachableR A Q (j + 1) s'

/-- The number of cells of a source. -/
def cells (s : Source ℝ) : ℕ := s.dVolume.length

/-- Strength array of a reaction. -/
def strengths (s : Source ℝ) (r : Reaction) : List ℝ := s.strength.getD r []

/-- The power of a source, added up exactly. -/
def truePower (Q : Reaction → ℝ) (s : Source ℝ) : ℝ :=
  (s.sourceType.map fun r => (strengths s r).sum * Q r).sum

end
end TNS.Spec
