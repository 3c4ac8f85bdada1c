import Verif.Model.OpenMC
import Mathlib.Analysis.SpecialFunctions.Integrals.Basic
/-
Property C21: geometry of one OpenMC ring source (over the reals).
-/

set_option autoImplicit false

namespace TNS.Spec

/-- OpenMC's "linear-linear" tabular density through `(x0, y0)` and `(x1, y1)`. -/
noncomputable def linearDensity (x0 x1 y0 y1 r : ℝ) : ℝ := y0 + (y1 - y0) * ((r - x0) / (x1 - x0))

/-- Volume of the part of a toroidal ring of height `h` between radii `a` and `b`. -/
noncomputable def ringVolume (h a b : ℝ) : ℝ := h * (Real.pi * b ^ 2 - Real.pi * a ^ 2)

end TNS.Spec

namespace TNS
open Spec

theorem lin_eq {x0 x1 s : ℝ} (h : x0 < x1) (r : ℝ) :
    linearDensity x0 x1 (x0 / s) (x1 / s) r = r / s := by
  unfold linearDensity
  have : x1 - x0 ≠ 0 := by linarith
  rw [← sub_div, div_mul_div_comm, mul_comm s, mul_div_mul_left _ _ this]
  ring

/-- **C21.**  A source with positive strength is a ring that occupies exactly the square cell (in
cm); its radial density is non-negative, and the probability it gives to any radial slice `[a, b]`
is that slice's share of the ring's volume, i.e. neutrons are uniform in volume.  (Needs the cell
to lie at non-negative radius.) -/
theorem C21_ring {E : Type} (x z half : ℝ) (energy : List (ℝ × E)) (strength : XF ℝ)
    (hs : strength.gt 0 = true) (hh : 0 < half) (hx : half ≤ x) :
    ∃ ring, ringSource x z half energy strength = some ring ∧
      ring.rLo = 100 * (x - half) ∧ ring.rHi = 100 * (x + half) ∧
      ring.zLo = 100 * (z - half) ∧ ring.zHi = 100 * (z + half) ∧
      ring.strength = strength ∧ ring.energy = energy ∧
      (∀ r, ring.rLo ≤ r → r ≤ ring.rHi →
        0 ≤ linearDensity ring.rLo ring.rHi ring.pLo ring.pHi r) ∧
      0 < ∫ r in ring.rLo..ring.rHi, linearDensity ring.rLo ring.rHi ring.pLo ring.pHi r ∧
      ∀ a b, ring.rLo ≤ a → a ≤ b → b ≤ ring.rHi →
        (∫ r in a..b, linearDensity ring.rLo ring.rHi ring.pLo ring.pHi r) /
          (∫ r in ring.rLo..ring.rHi, linearDensity ring.rLo ring.rHi ring.pLo ring.pHi r) =
        ringVolume (ring.zHi - ring.zLo) a b /
          ringVolume (ring.zHi - ring.zLo) ring.rLo ring.rHi := by
  have hlt : (x - half) * 100 < (x + half) * 100 := by linarith
  have hsum : 0 < (x - half) * 100 + (x + half) * 100 := by linarith
  have hlo : 0 ≤ (x - half) * 100 := by linarith
  refine ⟨_, if_pos hs, ?_⟩
  simp only [List.sum_cons, List.sum_nil, add_zero, lin_eq hlt]
  have hint : ∀ a b : ℝ, ∫ r in a..b, r / ((x - half) * 100 + (x + half) * 100) =
      (b ^ 2 - a ^ 2) / 2 / ((x - half) * 100 + (x + half) * 100) := by
    intro a b
    rw [intervalIntegral.integral_div, integral_id]
  refine ⟨by ring, by ring, by ring, by ring, trivial, trivial, ?_, ?_, ?_⟩
  · intro r h1 _
    exact div_nonneg (hlo.trans h1) hsum.le
  · rw [hint]
    apply div_pos _ hsum
    nlinarith
  · intro a b _ _ _
    rw [hint, hint]
    have h1 : ((x + half) * 100) ^ 2 - ((x - half) * 100) ^ 2 ≠ 0 := by nlinarith
    have h2 : (z + half) * 100 - (z - half) * 100 ≠ 0 := by linarith
    have h3 := Real.pi_pos.ne'
    unfold ringVolume
    rw [div_div_div_cancel_right₀ hsum.ne', ← mul_sub, ← mul_sub, mul_div_mul_left _ _ h2,
      mul_div_mul_left _ _ h3, div_div_div_cancel_right₀ two_ne_zero]

/-- The hypotheses are met, e.g. by a 20 cm cell at 6 m radius. -/
example : (XF.fin (0.25 : ℝ)).gt 0 = true ∧ (0 : ℝ) < 0.1 ∧ (0.1 : ℝ) ≤ 6 := by
  norm_num [XF.gt]

end TNS
