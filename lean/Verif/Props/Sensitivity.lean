import Verif.Spec.Sensitivity
import Verif.Props.RoundedProfileTable
import Verif.Props.RoundedExport
import Verif.Props.RoundedXsSource
/-
C104: what slightly wrong profiles and a slightly wrong flux map do to the strengths, the rates and the exports.
-/

set_option autoImplicit false

namespace TNS
open Spec
noncomputable section

theorem near_valueAt {δ : ℝ} {f' f : ℝ → Except Err ℝ} {x' x : ℝ} (h : NearAt δ f' x' f x) :
    |valueAt f' x' - valueAt f x| ≤ δ * valueAt f x := by
  obtain ⟨a, b, e1, e2, e3⟩ := h
  unfold valueAt
  rw [e1, e2]; exact e3

section
variable {δ : ℝ} {tr' tr : TransportView ℝ} {psi' psi : ℝ → ℝ → ℝ}

theorem cell_density {p : ℝ × ℝ} (h : CellAgrees δ tr' psi' tr psi p) (sp : Species) :
    |density tr' (psi' p.1 p.2) sp - density tr (psi p.1 p.2) sp| ≤ δ * density tr (psi p.1 p.2) sp := by
  cases sp with
  | deuterium => exact near_valueAt h.deuterium
  | tritium => exact near_valueAt h.tritium
  | helium3 => exact near_valueAt h.helium3

/-- The plasma used is in the range of C93. -/
theorem inside_ok (hδ0 : 0 ≤ δ) (hδ : δ ≤ 1 / 10 ^ 5) {cs : List (ℝ × ℝ)} (hin : PlasmaInside tr psi cs)
    (hag : ∀ p ∈ cs, CellAgrees δ tr' psi' tr psi p) : PlasmaOK tr' psi' cs := by
  intro p hp
  obtain ⟨h1, h3, h4, h5⟩ := hin p hp
  have h2 := hag p hp
  have hT := near_valueAt h2.temperature
  unfold temperatureAt at h4 h5
  obtain ⟨a1, a2⟩ := abs_le.1 hT
  norm_num at h4
  refine ⟨h1, fun sp => ?_, by norm_num; nlinarith, by nlinarith⟩
  have hsp := h3 sp
  have := (abs_le.1 (cell_density h2 sp)).1
  nlinarith

/-- The rate of a cell. -/
theorem cellRate_near {sv : Reaction → ℝ → ℝ} {K : ℝ} (hK : 0 ≤ K) (hδ0 : 0 ≤ δ) (hδ : δ ≤ 1 / 10 ^ 5)
    (hKδ : (K + 3) * δ ≤ 1 / 500) {L : ℝ} {cs : List (ℝ × ℝ)} (hin : PlasmaInside tr psi cs)
    (hag : ∀ p ∈ cs, CellAgrees δ tr' psi' tr psi p) {r : Reaction} (hr : Conditioned sv K δ r)
    (hpos : ∀ t, 0.2 ≤ t → t ≤ 100 → 0 < sv r t) {p : ℝ × ℝ} (hp : p ∈ cs) :
    0 ≤ cellRate sv tr psi L r p ∧
    |cellRate sv tr' psi' L r p - cellRate sv tr psi L r p| ≤ (K + 3) * δ * cellRate sv tr psi L r p := by
  obtain ⟨h1, h3, h4, h5⟩ := hin p hp
  obtain ⟨-, -, k4, k5⟩ := inside_ok hδ0 hδ hin hag p hp
  have hc := hag p hp
  have hT := near_valueAt hc.temperature
  unfold temperatureAt at h4 h5
  have h4' : (0.2 : ℝ) ≤ valueAt tr.temperature (psi p.1 p.2) := by norm_num at h4 ⊢; linarith
  have hs := hr _ _ h4' (by linarith) k4 k5 hT
  have hsp := hpos _ h4' (by linarith)
  have hv : 0 ≤ 2 * Real.pi * p.1 * L ^ 2 := by have := Real.pi_pos; positivity
  unfold cellRate rateDensity
  set k : ℝ := 1 + if (reactants r).1 = (reactants r).2 then 1 else 0 with hk
  have k0 : 0 < k := by rw [hk]; split_ifs <;> norm_num
  have ha := h3 (reactants r).1
  have hb := h3 (reactants r).2
  have hab := prod_close hδ0 (by linarith) ha hb (cell_density hc _) (cell_density hc _)
  generalize density tr (psi p.1 p.2) (reactants r).1 = a at *
  generalize density tr (psi p.1 p.2) (reactants r).2 = b at *
  generalize density tr' (psi' p.1 p.2) (reactants r).1 = a' at *
  generalize density tr' (psi' p.1 p.2) (reactants r).2 = b' at *
  generalize sv r (valueAt tr.temperature (psi p.1 p.2)) = s at *
  generalize sv r (valueAt tr'.temperature (psi' p.1 p.2)) = s' at *
  have ab := mul_nonneg ha hb
  have m : |a' * b' * s' - a * b * s| ≤ (K + 3) * δ * (a * b * s) := by
    have e : a' * b' * s' - a * b * s = (a' * b' - a * b) * (s' - s) + a * b * (s' - s) + (a' * b' - a * b) * s := by ring
    rw [e]
    refine (abs_add_three _ _ _).trans ?_
    rw [abs_mul, abs_mul (a * b), abs_mul _ s, abs_of_nonneg ab, abs_of_pos hsp]
    have m1 := mul_le_mul hab hs (abs_nonneg _) (by positivity)
    have m2 := mul_le_mul_of_nonneg_left hs ab
    have m3 := mul_le_mul_of_nonneg_right hab hsp.le
    have abs' : 0 ≤ a * b * s := mul_nonneg ab hsp.le
    have kd : K * δ ≤ 1 / 500 := by nlinarith
    have m4 : 2.01 * δ * (K * δ) * (a * b * s) ≤ 2.01 * δ * (1 / 500) * (a * b * s) :=
      mul_le_mul_of_nonneg_right (mul_le_mul_of_nonneg_left kd (by positivity)) abs'
    have m5 := mul_nonneg hδ0 abs'
    nlinarith
  refine ⟨mul_nonneg (div_nonneg (mul_nonneg ab hsp.le) k0.le) hv, ?_⟩
  generalize 2 * Real.pi * p.1 * L ^ 2 = V at hv ⊢
  have e : a' * b' * s' / k * V - a * b * s / k * V = (a' * b' * s' - a * b * s) * (V / k) := by ring
  have e2 : (K + 3) * δ * (a * b * s / k * V) = (K + 3) * δ * (a * b * s) * (V / k) := by ring
  rw [e, e2, abs_mul, abs_of_nonneg (div_nonneg hv k0.le)]
  exact mul_le_mul_of_nonneg_right m (div_nonneg hv k0.le)

theorem map_sum_near {α : Type} {f g : α → ℝ} {κ : ℝ} (l : List α)
    (h : ∀ x ∈ l, 0 ≤ g x ∧ |f x - g x| ≤ κ * g x) :
    0 ≤ (l.map g).sum ∧ |(l.map f).sum - (l.map g).sum| ≤ κ * (l.map g).sum := by
  refine rel_sum ?_
  rw [List.forall₂_map_left_iff, List.forall₂_map_right_iff, List.forall₂_same]
  exact h

theorem scale_near {a b κ c : ℝ} (hc : 0 ≤ c) (h : 0 ≤ b ∧ |a - b| ≤ κ * b) :
    0 ≤ b * c ∧ |a * c - b * c| ≤ κ * (b * c) := by
  refine ⟨mul_nonneg h.1 hc, ?_⟩
  rw [← sub_mul, abs_mul, abs_of_nonneg hc]
  have := mul_le_mul_of_nonneg_right h.2 hc
  linarith

theorem combine {c a x ε κ : ℝ} (hx : 0 ≤ x) (hε : 0 ≤ ε) (hκ1 : κ ≤ 1 / 500)
    (h1 : |c - a| ≤ ε * a) (h2 : |a - x| ≤ 2.01 * κ * x) : |c - x| ≤ (1.01 * ε + 2.01 * κ) * x := by
  have h3 := abs_sub_le c a x
  have h4 := (abs_le.1 h2).2
  have h5 : ε * a ≤ ε * (1.01 * x) := mul_le_mul_of_nonneg_left (by nlinarith) hε
  linarith

end

section
variable {A : Arith} {u : ℝ} (hA : StandardModel A u)
  {F : MathLib} {xs : Reaction → List ℝ → Except Err (List ℝ)} {pi : ℝ} (hpi : |pi - Real.pi| ≤ u * Real.pi)
  {Q : Reaction → ℝ} (hQ : ∀ r, 0 < Q r)
  {pts : List (ℝ × ℝ)} {oX oZ : ℝ} {psi' psi : ℝ → ℝ → ℝ} {tr' tr : TransportView ℝ}
  {arg : SourceArg} {L : ℝ} {method : ReactivityMethod} {s : Source ℝ}
  {ref : Reaction → ℝ → ℝ} {e : ℝ} (he : 0 ≤ e)
  (hacc : ∀ r ∈ s.sourceType, AccurateReactivity (reactivityR A F xs method) ref e r)
  {K δ : ℝ} (hK : 0 ≤ K) (hcond : ∀ r ∈ s.sourceType, Conditioned ref K δ r)
  (hδ0 : 0 ≤ δ) (hδ : δ ≤ 1 / 10 ^ 5) (hKδ : (K + 3) * δ ≤ 1 / 500)
  (hin : PlasmaInside tr psi (centres s)) (hag : ∀ p ∈ centres s, CellAgrees δ tr' psi' tr psi p)
  {P : ℝ} (hP : 0 < P)
  (hs : Source.makeR A F xs pi Q pts oX oZ psi' tr' arg L (some P) method = .ok s)
  (hsmall : 2.3 * e + 3 * ((cells s : ℝ) + s.sourceType.length + 14) * u ≤ 1 / 500)

include hacc hK hcond hδ0 hδ hKδ hin hag in
theorem rate_near {r : Reaction} (hr : r ∈ s.sourceType) {p : ℝ × ℝ} (hp : p ∈ centres s) :
    0 ≤ cellRate ref tr psi L r p ∧
    |cellRate ref tr' psi' L r p - cellRate ref tr psi L r p| ≤ (K + 3) * δ * cellRate ref tr psi L r p :=
  cellRate_near hK hδ0 hδ hKδ hin hag (hcond r hr) (hacc r hr).pos hp

include hacc hK hcond hδ0 hδ hKδ hin hag in
theorem channel_near {r : Reaction} (hr : r ∈ s.sourceType) :
    0 ≤ channelRate ref tr psi L (centres s) r ∧
    |channelRate ref tr' psi' L (centres s) r - channelRate ref tr psi L (centres s) r| ≤
      (K + 3) * δ * channelRate ref tr psi L (centres s) r :=
  map_sum_near _ fun _ hp => rate_near hacc hK hcond hδ0 hδ hKδ hin hag hr hp

include hacc hK hcond hδ0 hδ hKδ hin hag hQ in
theorem power_near :
    0 ≤ cellsPower ref Q tr psi L (centres s) s.sourceType ∧
    |cellsPower ref Q tr' psi' L (centres s) s.sourceType - cellsPower ref Q tr psi L (centres s) s.sourceType| ≤
      (K + 3) * δ * cellsPower ref Q tr psi L (centres s) s.sourceType :=
  map_sum_near _ fun r hr => scale_near (hQ r).le (channel_near hacc hK hcond hδ0 hδ hKδ hin hag hr)

include hacc hK hcond hδ0 hδ hKδ hin hag in
theorem neutrons_near {r : Reaction} (hr : r ∈ s.sourceType) {p : ℝ × ℝ} (hp : p ∈ centres s) :
    0 ≤ channelNeutrons ref tr psi L r p ∧
    |channelNeutrons ref tr' psi' L r p - channelNeutrons ref tr psi L r p| ≤ (K + 3) * δ * channelNeutrons ref tr psi L r p := by
  have := scale_near (Nat.cast_nonneg (neutronYield r)) (rate_near (L := L) hacc hK hcond hδ0 hδ hKδ hin hag hr hp)
  unfold channelNeutrons
  rwa [mul_comm (cellRate ref tr psi L r p), mul_comm (cellRate ref tr' psi' L r p)] at this

include hacc hK hcond hδ0 hδ hKδ hin hag in
theorem neutronRate_near {p : ℝ × ℝ} (hp : p ∈ centres s) :
    0 ≤ neutronRate ref tr psi L s.sourceType p ∧
    |neutronRate ref tr' psi' L s.sourceType p - neutronRate ref tr psi L s.sourceType p| ≤
      (K + 3) * δ * neutronRate ref tr psi L s.sourceType p :=
  map_sum_near _ fun _ hr => neutrons_near hacc hK hcond hδ0 hδ hKδ hin hag hr hp

include hacc hK hcond hδ0 hδ hKδ hin hag in
theorem emission_near :
    0 ≤ ((centres s).map (neutronRate ref tr psi L s.sourceType)).sum ∧
    |((centres s).map (neutronRate ref tr' psi' L s.sourceType)).sum -
        ((centres s).map (neutronRate ref tr psi L s.sourceType)).sum| ≤
      (K + 3) * δ * ((centres s).map (neutronRate ref tr psi L s.sourceType)).sum :=
  map_sum_near _ fun _ hp => neutronRate_near hacc hK hcond hδ0 hδ hKδ hin hag hp

include hA hpi hQ he hacc hK hcond hδ0 hδ hKδ hin hag hP hs hsmall in
/-- C104.  Strengths: if temperature and densities are read off with a relative error of at most `δ` at every cell centre (wrong
flux label, rounding in the profiles), and the reactivities used have condition number `K`, then the strength of every
cell of a source normalised to the power `P` is `P x (reaction rate of the plasma meant) / (its power in the cells)`, with
a relative error of at most `2.01 (K + 3) δ` more than `1.01` times that of C93. -/
theorem C104_strengths :
    0 < cellsPower ref Q tr psi L (centres s) s.sourceType ∧
    ∀ r ∈ s.sourceType, List.Forall₂ (fun a p =>
      RelClose (1.01 * (2.3 * e + 3 * ((cells s : ℝ) + s.sourceType.length + 14) * u) + 2.01 * ((K + 3) * δ)) a
        (P * cellRate ref tr psi L r p / cellsPower ref Q tr psi L (centres s) s.sourceType))
      (strengths s r) (centres s) := by
  have hu0 := hA.u_nonneg
  have hok := inside_ok hδ0 hδ hin hag
  obtain ⟨hT, H⟩ := C93_strengths hA hpi hQ he hacc hok hP hs hsmall
  obtain ⟨w0, w1⟩ := power_near (L := L) hQ hacc hK hcond hδ0 hδ hKδ hin hag
  have hT' := (pos_iff_close w0 hKδ w1).1 hT
  have κ0 : 0 ≤ (K + 3) * δ := by positivity
  refine ⟨hT', fun r hr => ?_⟩
  have h := H r hr
  rw [List.forall₂_iff_get] at h ⊢
  refine ⟨h.1, fun i h1 h2 => ?_⟩
  obtain ⟨c0, c1⟩ := rate_near (L := L) hacc hK hcond hδ0 hδ hKδ hin hag hr (List.get_mem (centres s) ⟨i, h2⟩)
  have e1 := h.2 i h1 h2
  have hq := ratio_close c0 hT' κ0 hKδ c1 w1
  have hq' := scale_near hP.le ⟨div_nonneg c0 hT'.le, hq⟩
  refine combine (a := P * cellRate ref tr' psi' L r ((centres s).get ⟨i, h2⟩) /
    cellsPower ref Q tr' psi' L (centres s) s.sourceType) ?_ ?_ hKδ e1 ?_
  · have := hq'.1; rwa [mul_comm, ← mul_div_assoc] at this
  · have := (Nat.cast_nonneg (cells s) : (0 : ℝ) ≤ _)
    have := (Nat.cast_nonneg s.sourceType.length : (0 : ℝ) ≤ _)
    positivity
  · have := hq'.2
    rwa [mul_comm _ P, mul_comm _ P, ← mul_div_assoc, ← mul_div_assoc] at this

include hA hpi hQ he hacc hK hcond hδ0 hδ hKδ hin hag hP hs hsmall in
/-- C104.  The reactions and neutrons per second reported for a channel. -/
theorem C104_rates (r : Reaction) (hr : r ∈ s.sourceType) :
    let rate := P * channelRate ref tr psi L (centres s) r / cellsPower ref Q tr psi L (centres s) s.sourceType
    let ε := 1.01 * (2.3 * e + 8 * ((cells s : ℝ) + s.sourceType.length + 14) * u) + 2.01 * ((K + 3) * δ)
    RelClose ε (s.numReactions.getD r 0) rate ∧
    RelClose ε (s.numNeutrons.getD r 0) ((neutronYield r : ℝ) * rate) := by
  intro rate ε
  have hu0 := hA.u_nonneg
  have hok := inside_ok hδ0 hδ hin hag
  obtain ⟨hT, -⟩ := C93_strengths hA hpi hQ he hacc hok hP hs hsmall
  obtain ⟨w0, w1⟩ := power_near (L := L) hQ hacc hK hcond hδ0 hδ hKδ hin hag
  have hT' := (pos_iff_close w0 hKδ w1).1 hT
  have κ0 : 0 ≤ (K + 3) * δ := by positivity
  obtain ⟨a1, a2⟩ := C93_rates hA hpi hQ he hacc hok hP hs hsmall r hr
  obtain ⟨c0, c1⟩ := channel_near (L := L) hacc hK hcond hδ0 hδ hKδ hin hag hr
  have hq' := scale_near hP.le ⟨div_nonneg c0 hT'.le, ratio_close c0 hT' κ0 hKδ c1 w1⟩
  rw [mul_comm _ P, mul_comm _ P, ← mul_div_assoc, ← mul_div_assoc] at hq'
  have hε : 0 ≤ 2.3 * e + 8 * ((cells s : ℝ) + s.sourceType.length + 14) * u := by positivity
  refine ⟨combine hq'.1 hε hKδ a1 hq'.2, ?_⟩
  have hy := scale_near (Nat.cast_nonneg (neutronYield r)) hq'
  rw [mul_comm _ (neutronYield r : ℝ), mul_comm _ (neutronYield r : ℝ)] at hy
  exact combine hy.1 hε hKδ a2 hy.2

end
end
end TNS
