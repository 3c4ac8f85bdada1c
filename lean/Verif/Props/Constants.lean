import Verif.Model.Constants
import Verif.Props.Physical
import Mathlib.Tactic.Ring
import Mathlib.Tactic.FieldSimp
import Mathlib.Tactic.Linarith
import Mathlib.Tactic.Positivity
/-
Properties C11 (energies per reaction) and C60 (unit conversion).
-/

set_option autoImplicit false

namespace TNS.Spec

/-- Reactant minus product masses (neutral atoms; a free proton comes with its electron). -/
def massDefect {K : Type} [Field K] (m : Masses K) : Reaction → K
  | .n .D_T => (m.D + m.T) - (m.He + m.n)
  | .n .D_D => (m.D + m.D) - (m.He3 + m.n)
  | .n .T_T => (m.T + m.T) - (m.He + m.n + m.n)
  | .a .D_D => (m.D + m.D) - (m.T + (m.p + m.e))
  | .a .D_He3 => (m.D + m.He3) - (m.He + (m.p + m.e))

end TNS.Spec

namespace TNS
open Spec

section
variable {K : Type} [Field K]

/-- **C11**, mass defect: the energy per reaction is the mass defect times the conversion factor,
whatever the masses. -/
theorem C11_mass_defect (m : Masses K) (c : K) (r : Reaction) :
    totalEnergy m c r = massDefect m r * c := by
  rcases r with (_ | _ | _) | (_ | _) <;>
    simp only [totalEnergy, massDefect, eDT, eDDn, eTT, eDDp, eDHe3] <;> ring

/-- **C11**, reaction cycle: going from three deuterons to ⁴He + p + n releases the same energy via
D-D→T+p, D-T as via D-D→³He+n, D-³He. -/
theorem C11_cycle (m : Masses K) (c : K) :
    totalEnergy m c .DDp + totalEnergy m c .DT = totalEnergy m c .DDn + totalEnergy m c .DHe3 := by
  simp only [totalEnergy, eDT, eDDn, eDDp, eDHe3]; ring

/-- **C11**, kinematics of the two-body neutron channels: the neutron's energy and the recoil
nucleus' energy add up to the energy per reaction and have equal momenta (`m_n E_n = m_r E_r`,
non-relativistic, nuclear mass of the recoil). -/
theorem C11_neutron_kinematics (m : Masses K) (c : K) :
    (m.He - 2 * m.e + m.n ≠ 0 →
      m.n * eDTNeutron m c = (m.He - 2 * m.e) * (totalEnergy m c .DT - eDTNeutron m c)) ∧
    (m.He3 - 2 * m.e + m.n ≠ 0 →
      m.n * eDDNeutron m c = (m.He3 - 2 * m.e) * (totalEnergy m c .DDn - eDDNeutron m c)) := by
  constructor
  · intro h
    simp only [totalEnergy, eDTNeutron]
    field_simp
    ring
  · intro h
    simp only [totalEnergy, eDDNeutron]
    field_simp
    ring

end

section
variable {K : Type} [Field K] [LinearOrder K] [IsStrictOrderedRing K]

/-- **C11**, sign: a reaction is exothermic exactly when the reactants are heavier. -/
theorem C11_sign (m : Masses K) (c : K) (hc : 0 < c) (r : Reaction) :
    0 < totalEnergy m c r ↔ 0 < massDefect m r := by
  rw [C11_mass_defect]
  exact ⟨fun h => pos_of_mul_pos_left h hc.le, fun h => mul_pos h hc⟩

/-- **C11**, neutron share: with positive masses and an exothermic reaction the D-T and D-D neutrons
carry a positive part of the energy, less than all of it. -/
theorem C11_neutron_share (m : Masses K) (c : K) (hn : 0 < m.n) (hHe : 0 < m.He - 2 * m.e)
    (hHe3 : 0 < m.He3 - 2 * m.e) (h1 : 0 < totalEnergy m c .DT) (h2 : 0 < totalEnergy m c .DDn) :
    (0 < eDTNeutron m c ∧ eDTNeutron m c < totalEnergy m c .DT) ∧
    (0 < eDDNeutron m c ∧ eDDNeutron m c < totalEnergy m c .DDn) := by
  have key : ∀ a b q : K, 0 < a → 0 < b → 0 < q → 0 < a / (a + b) * q ∧ a / (a + b) * q < q := by
    intro a b q ha hb hq
    refine ⟨by positivity, ?_⟩
    have : a / (a + b) < 1 := by rw [div_lt_one (by linarith)]; linarith
    calc a / (a + b) * q < 1 * q := mul_lt_mul_of_pos_right this hq
      _ = q := one_mul q
  exact ⟨key _ _ _ hHe hn h1, key _ _ _ hHe3 hn h2⟩

/-- **C11**, T-T neutrons: let the first neutron (energy `E₁`) and a ⁵He nucleus share the energy `q`, and
the second neutron (energy `E₂` in the frame of ⁵He) and ⁴He the rest, with balanced momenta and masses in
the ratios 1 : 5 and 1 : 4.  The tabulated T-T neutron energy is the mean of `E₁` and `E₂`.  The motion of
⁵He is left out: in the frame of the reaction the second neutron has, on average, one fifth of the energy of
⁵He more, and the mean is larger by `q / 60`. -/
theorem C11_TT_neutron (m : Masses K) (c q E₁ E₂ : K) (h1 : E₁ = 5 * (q - E₁))
    (h2 : E₂ = 4 * (totalEnergy m c .TT - q - E₂)) :
    eTTNeutron m c q = (E₁ + E₂) / 2 ∧
      (E₁ + (E₂ + (q - E₁) / 5)) / 2 = eTTNeutron m c q + q / 60 := by
  have a1 : E₁ = q * 5 / 6 := by linarith
  have a2 : E₂ = (totalEnergy m c .TT - q) * 4 / 5 := by linarith
  have e : totalEnergy m c .TT = eTT m c := rfl
  rw [e] at a2
  subst a1 a2
  unfold eTTNeutron
  constructor
  · ring
  · ring

end

/-- CODATA-like masses satisfy the hypotheses (u, rounded to 1e-6 u). -/
def Ex.masses : Masses ℚ :=
  { D := 2014102/1000000, T := 3016049/1000000, He := 4002602/1000000, He3 := 3016029/1000000
    n := 1008665/1000000, p := 1007276/1000000, e := 549/1000000 }

example : (∀ r ∈ channelOrder, 0 < massDefect Ex.masses r) ∧ 0 < Ex.masses.n ∧
    0 < Ex.masses.He - 2 * Ex.masses.e ∧ 0 < Ex.masses.He3 - 2 * Ex.masses.e := by
  decide +kernel

/-! ### C60 -/
section
variable {K : Type} [Field K]

/-- The conversion factor between two units, where there is one. -/
def ucFactor (c2 kB : K) (a b : PUnit' K) : Option K :=
  if a.dim = b.dim then some (a.scale / b.scale)
  else match toEnergy c2 kB a.dim, toEnergy c2 kB b.dim with
    | some fa, some fb =>
      if fa.1 = fb.1 then some (a.scale * fa.2 / (b.scale * fb.2)) else none
    | _, _ => none

theorem rawUc_eq_factor (c2 kB v : K) (a b : PUnit' K) :
    rawUc c2 kB v a b = match ucFactor c2 kB a b with
      | some f => .ok (v * f)
      | none => .error .tnsError := by
  unfold rawUc ucFactor
  by_cases h : a.dim = b.dim
  · simp only [h, if_true]
  · simp only [h, if_false]
    cases e1 : toEnergy c2 kB a.dim <;> cases e2 : toEnergy c2 kB b.dim <;> simp only
    split <;> rfl

theorem rawUc_ok_iff (c2 kB v w : K) (a b : PUnit' K) :
    rawUc c2 kB v a b = .ok w ↔ ∃ f, ucFactor c2 kB a b = some f ∧ w = v * f := by
  rw [rawUc_eq_factor]
  cases e : ucFactor c2 kB a b with
  | none => simp
  | some f => simp [eq_comm]

/-- **C60**, linearity: converting a linear combination is the combination of the conversions. -/
theorem C60_linear (c2 kB : K) (a b : PUnit' K) (s t v w v' w' : K)
    (hv : rawUc c2 kB v a b = .ok v') (hw : rawUc c2 kB w a b = .ok w') :
    rawUc c2 kB (s * v + t * w) a b = .ok (s * v' + t * w') := by
  rw [rawUc_ok_iff] at *
  obtain ⟨f, hf, rfl⟩ := hv
  obtain ⟨g, hg, rfl⟩ := hw
  rw [hf] at hg; cases hg
  exact ⟨f, hf, by ring⟩

/-- **C60**, composition and round trip: converting `a → b → c` equals converting `a → c`, and
converting back gives the original value; sizes of units and the context constants are non-zero. -/
theorem C60_compose (c2 kB : K) (hc : c2 ≠ 0) (hk : kB ≠ 0) (a b c : PUnit' K) (hb : b.scale ≠ 0)
    (v w : K) (h1 : rawUc c2 kB v a b = .ok w) : rawUc c2 kB w b c = rawUc c2 kB v a c := by
  obtain ⟨f, hf, rfl⟩ := (rawUc_ok_iff _ _ _ _ _ _).1 h1
  rw [rawUc_eq_factor, rawUc_eq_factor]
  have key : ∀ g, ucFactor c2 kB b c = some g → ucFactor c2 kB a c = some (f * g) := by
    intro g hg
    obtain ⟨da, sa⟩ := a
    obtain ⟨db, sb⟩ := b
    obtain ⟨dc, sc⟩ := c
    simp only at hb
    simp only [ucFactor] at hf hg ⊢
    cases da <;> cases db <;> simp [toEnergy] at hf <;> cases dc <;> simp [toEnergy] at hg ⊢ <;>
      (try simp_all) <;> (try rw [← hf.2, ← hg.2]) <;> (try subst hf) <;> (try subst hg) <;> field_simp
  have key2 : ucFactor c2 kB b c = none → ucFactor c2 kB a c = none := by
    intro hg
    obtain ⟨da, sa⟩ := a
    obtain ⟨db, sb⟩ := b
    obtain ⟨dc, sc⟩ := c
    simp only [ucFactor] at hf hg ⊢
    cases da <;> cases db <;> simp [toEnergy] at hf <;> cases dc <;> simp [toEnergy] at hg ⊢ <;>
      simp_all
  cases e : ucFactor c2 kB b c with
  | none => rw [key2 e]
  | some g => rw [key g e]; simp only [mul_assoc]

theorem C60_round_trip (c2 kB : K) (hc : c2 ≠ 0) (hk : kB ≠ 0) (a b : PUnit' K)
    (ha : a.scale ≠ 0) (hb : b.scale ≠ 0) (v w : K) (h1 : rawUc c2 kB v a b = .ok w) :
    rawUc c2 kB w b a = .ok v := by
  rw [C60_compose c2 kB hc hk a b a hb v w h1]
  simp [rawUc, div_self ha]

/-- **C60**, compatibility: `units_compatible` says yes exactly when every value can be converted, and
exactly when the two units measure the same kind of quantity: the same dimension, or both an energy, a mass or
a temperature, or both one of these per unit of time.  An incompatible conversion raises, for every
value. -/
theorem C60_compatible (c2 kB : K) (a b : PUnit' K) :
    (unitsCompatible c2 kB a b = true ↔ ∀ v, ∃ w, rawUc c2 kB v a b = .ok w) ∧
    (unitsCompatible c2 kB a b = true ↔ a.dim = b.dim ∨
      (a.dim ∈ [Dim.energy, .mass, .temperature] ∧ b.dim ∈ [Dim.energy, .mass, .temperature]) ∨
      (a.dim ∈ [Dim.power, .massRate, .temperatureRate] ∧
        b.dim ∈ [Dim.power, .massRate, .temperatureRate])) ∧
    (unitsCompatible c2 kB a b = false → ∀ v, rawUc c2 kB v a b = .error .tnsError) := by
  have hu : unitsCompatible c2 kB a b = (ucFactor c2 kB a b).isSome := by
    unfold unitsCompatible
    rw [rawUc_eq_factor]
    cases ucFactor c2 kB a b <;> rfl
  refine ⟨?_, ?_, ?_⟩
  · rw [hu]
    simp only [rawUc_ok_iff]
    constructor
    · intro h v
      obtain ⟨f, hf⟩ := Option.isSome_iff_exists.1 h
      exact ⟨v * f, f, hf, rfl⟩
    · intro h
      obtain ⟨_, f, hf, _⟩ := h 0
      rw [hf]; rfl
  · rw [hu]
    obtain ⟨da, sa⟩ := a
    obtain ⟨db, sb⟩ := b
    simp only [ucFactor]
    cases da <;> cases db <;> simp [toEnergy]
  · intro h v
    rw [hu] at h
    rw [rawUc_eq_factor]
    cases e : ucFactor c2 kB a b with
    | none => rfl
    | some f => rw [e] at h; exact absurd h (by simp)

/-- **C60**, compatibility is an equivalence relation between units. -/
theorem C60_equivalence (c2 kB : K) : Equivalence (fun a b : PUnit' K => unitsCompatible c2 kB a b = true) := by
  refine ⟨fun a => ?_, fun {a b} h => ?_, fun {a b c} h1 h2 => ?_⟩
  · rw [(C60_compatible c2 kB a a).2.1]; exact Or.inl rfl
  · rw [(C60_compatible c2 kB a b).2.1] at h
    rw [(C60_compatible c2 kB b a).2.1]
    rcases h with h | ⟨h, h'⟩ | ⟨h, h'⟩
    · exact Or.inl h.symm
    · exact Or.inr (Or.inl ⟨h', h⟩)
    · exact Or.inr (Or.inr ⟨h', h⟩)
  · rw [(C60_compatible c2 kB a b).2.1] at h1
    rw [(C60_compatible c2 kB b c).2.1] at h2
    rw [(C60_compatible c2 kB a c).2.1]
    generalize a.dim = x at *
    generalize b.dim = y at *
    generalize c.dim = z at *
    cases x <;> cases y <;> simp at h1 <;> cases z <;> simp at h2 ⊢ <;> simp_all

/-- **C60**, the scale factors used by the package: m to cm is 100, keV to eV 1000, keV to MeV and
eV to keV 1/1000. -/
theorem C60_factors (c2 kB v m e : K) (d : Dim) (hm : m ≠ 0) (he : e ≠ 0)
    (h10 : (10 : K) ≠ 0) :
    rawUc c2 kB v ⟨d, m⟩ ⟨d, m / 100⟩ = .ok (v * 100) ∧
    rawUc c2 kB v ⟨.energy, e * 1000⟩ ⟨.energy, e⟩ = .ok (v * 1000) ∧
    rawUc c2 kB v ⟨.energy, e * 1000⟩ ⟨.energy, e * 1000000⟩ = .ok (v / 1000) ∧
    rawUc c2 kB v ⟨.energy, e⟩ ⟨.energy, e * 1000⟩ = .ok (v / 1000) := by
  have h2 : (100 : K) ≠ 0 := by
    have : (100 : K) = 10 ^ 2 := by norm_num
    rw [this]; exact pow_ne_zero _ h10
  have h3 : (1000 : K) ≠ 0 := by
    have : (1000 : K) = 10 ^ 3 := by norm_num
    rw [this]; exact pow_ne_zero _ h10
  have h6 : (1000000 : K) = 1000 * 1000 := by norm_num
  simp only [rawUc, if_true, Except.ok.injEq]
  refine ⟨?_, ?_, ?_, ?_⟩
  · rw [div_div_eq_mul_div, mul_comm m, mul_div_cancel_right₀ _ hm]
  · rw [mul_comm e, mul_div_cancel_right₀ _ he]
  · rw [h6]; field_simp
  · field_simp

end

/-- **C60**, contexts: a mass converts to an energy by `E = m c²`, a temperature by `E = k_B T`, and a mass to
a temperature by `m c² / k_B`; per unit of time the same factors apply. -/
theorem C60_contexts {K : Type} [Field K] (c2 kB v p q : K) :
    rawUc c2 kB v ⟨.mass, p⟩ ⟨.energy, q⟩ = .ok (v * (p * c2 / q)) ∧
    rawUc c2 kB v ⟨.temperature, p⟩ ⟨.energy, q⟩ = .ok (v * (p * kB / q)) ∧
    rawUc c2 kB v ⟨.mass, p⟩ ⟨.temperature, q⟩ = .ok (v * (p * c2 / (q * kB))) ∧
    rawUc c2 kB v ⟨.massRate, p⟩ ⟨.power, q⟩ = .ok (v * (p * c2 / q)) ∧
    rawUc c2 kB v ⟨.temperatureRate, p⟩ ⟨.power, q⟩ = .ok (v * (p * kB / q)) ∧
    rawUc c2 kB v ⟨.massRate, p⟩ ⟨.temperatureRate, q⟩ = .ok (v * (p * c2 / (q * kB))) := by
  simp [rawUc, toEnergy]

/-- **C60**, order: conversion between units of positive size preserves (strict) order. -/
theorem C60_monotone {K : Type} [Field K] [LinearOrder K] [IsStrictOrderedRing K] (c2 kB : K)
    (hc : 0 < c2) (hk : 0 < kB) (a b : PUnit' K) (ha : 0 < a.scale) (hb : 0 < b.scale)
    (v w v' w' : K) (hv : rawUc c2 kB v a b = .ok v') (hw : rawUc c2 kB w a b = .ok w') :
    v < w ↔ v' < w' := by
  have key : ∀ f : K, 0 < f → (v < w ↔ v * f < w * f) := fun f hf =>
    ⟨fun h => mul_lt_mul_of_pos_right h hf, fun h => lt_of_mul_lt_mul_right h hf.le⟩
  obtain ⟨f, hf, rfl⟩ := (rawUc_ok_iff _ _ _ _ _ _).1 hv
  obtain ⟨g, hg, rfl⟩ := (rawUc_ok_iff _ _ _ _ _ _).1 hw
  rw [hf] at hg; cases hg
  apply key
  obtain ⟨da, sa⟩ := a
  obtain ⟨db, sb⟩ := b
  simp only at ha hb
  simp only [ucFactor] at hf
  cases da <;> cases db <;> simp [toEnergy] at hf <;> (try simp_all) <;> (try rw [← hf.2]) <;>
    (try subst hf) <;> positivity

/-- Mass to energy works through the context, mass to a length or to a power does not. -/
example : rawUc (9 : ℚ) 2 5 ⟨.mass, 3⟩ ⟨.energy, 1⟩ = .ok 135 ∧
    rawUc (9 : ℚ) 2 5 ⟨.mass, 3⟩ ⟨.other 0, 1⟩ = .error .tnsError ∧
    rawUc (9 : ℚ) 2 5 ⟨.mass, 3⟩ ⟨.power, 1⟩ = .error .tnsError ∧
    unitsCompatible (9 : ℚ) 2 ⟨.massRate, 3⟩ ⟨.power, 1⟩ = true := by
  decide +kernel

end TNS
