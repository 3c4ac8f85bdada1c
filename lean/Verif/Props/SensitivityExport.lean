import Verif.Props.Sensitivity
/-
C104: the exports.
-/

set_option autoImplicit false

namespace TNS
open Spec
noncomputable section

theorem quot_near {S S' w w' κ κ' : ℝ} (s0 : 0 ≤ S) (hw : 0 < w) (hκ : 0 ≤ κ) (hκ' : κ ≤ κ') (hκ1 : κ ≤ 1 / 500)
    (s1 : |S' - S| ≤ κ' * S) (c1 : |w' - w| ≤ κ * w) : |S' / w' - S / w| ≤ 2.01 * κ' * (S / w) := by
  have hb1 := (abs_le.1 c1).1
  have h4 : (1 - 1 / 500) * w ≤ w' := by nlinarith
  have hbp : 0 < w' := by nlinarith
  have e1 : S' / w' - S / w = ((S' - S) - (S / w) * (w' - w)) / w' := by field_simp; ring
  rw [e1, abs_div, abs_of_pos hbp, div_le_iff₀ hbp]
  have hq0 : 0 ≤ S / w := div_nonneg s0 hw.le
  have h2 : |(S / w) * (w' - w)| ≤ κ * S := by
    rw [abs_mul, abs_of_nonneg hq0]
    calc S / w * |w' - w| ≤ S / w * (κ * w) := mul_le_mul_of_nonneg_left c1 hq0
      _ = κ * S := by field_simp
  have h3 := abs_sub (S' - S) (S / w * (w' - w))
  have k0 : 0 ≤ 2.01 * κ' * (S / w) := mul_nonneg (by linarith) hq0
  have h6 := mul_le_mul_of_nonneg_left h4 k0
  have h7 : 2.01 * κ' * (S / w) * ((1 - 1 / 500) * w) = 2.01 * (1 - 1 / 500) * (κ' * S) := by field_simp
  have h8 : κ * S ≤ κ' * S := mul_le_mul_of_nonneg_right hκ' s0
  have h9 : 0 ≤ κ' * S := mul_nonneg (by linarith) s0
  rw [h7] at h6
  linarith

theorem mul_near {K δ R R' T T' : ℝ} (hδ0 : 0 ≤ δ) (hKδ : (K + 3) * δ ≤ 1 / 500) (d0 : 0 ≤ R) (tp : 0 ≤ T)
    (d1 : |R' - R| ≤ (K + 3) * δ * R) (hTp : |T' - T| ≤ δ * T) : |R' * T' - R * T| ≤ (K + 5) * δ * (R * T) := by
  have e1 : R' * T' - R * T = (R' - R) * (T' - T) + R * (T' - T) + (R' - R) * T := by ring
  rw [e1]
  refine (abs_add_three _ _ _).trans ?_
  rw [abs_mul, abs_mul R, abs_mul _ T, abs_of_nonneg d0, abs_of_nonneg tp]
  have m1 := mul_le_mul d1 hTp (abs_nonneg _) ((abs_nonneg _).trans d1)
  have m2 := mul_le_mul_of_nonneg_left hTp d0
  have m3 := mul_le_mul_of_nonneg_right d1 tp
  have rt := mul_nonneg d0 tp
  have m4 : (K + 3) * δ * δ * (R * T) ≤ 1 / 500 * δ * (R * T) :=
    mul_le_mul_of_nonneg_right (mul_le_mul_of_nonneg_right hKδ hδ0) rt
  have m5 := mul_nonneg hδ0 rt
  nlinarith

section
variable {A : Arith} {u : ℝ} (hA : StandardModel A u)
  {F : MathLib} {xs : Reaction → List ℝ → Except Err (List ℝ)} {pi : ℝ} (hpi : |pi - Real.pi| ≤ u * Real.pi)
  {Q : Reaction → ℝ} (hQ : ∀ r, 0 < Q r)
  {pts : List (ℝ × ℝ)} {oX oZ : ℝ} {psi' psi : ℝ → ℝ → ℝ} {tr' tr : TransportView ℝ}
  {arg : SourceArg} {L : ℝ} {method : ReactivityMethod} {s : Source ℝ}
  {ref : Reaction → ℝ → ℝ} {e : ℝ} (he : 0 ≤ e)
  (hacc : ∀ r ∈ s.sourceType, AccurateReactivity (reactivityR A F xs method) ref e r)
  {K δ : ℝ} (hK : 0 ≤ K) (hcond : ∀ r ∈ s.sourceType, Conditioned ref K δ r)
  (hδ0 : 0 ≤ δ) (hδ : δ ≤ 1 / 10 ^ 5) (hKδ : (K + 3) * δ ≤ 1 / 500)
  (hin : PlasmaInside tr psi (centres s)) (hag : ∀ p ∈ centres s, CellAgrees δ tr' psi' tr psi p)
  {P : ℝ} (hP : 0 < P)
  (hs : Source.makeR A F xs pi Q pts oX oZ psi' tr' arg L (some P) method = .ok s)

include hA hpi hQ he hacc hK hcond hδ0 hδ hKδ hin hag hP hs in
/-- C104.  OpenMC: exactly one source for each cell in which the plasma meant gives neutrons, in the order of the cells;
strength, weights, temperature of the spectra and extent are those of the plasma meant. -/
theorem C104_openmc (hsmall : 2.3 * e + 3 * ((cells s : ℝ) + s.sourceType.length + 14) * u ≤ 1 / 500) (hL : 0 ≤ L)
    (hpos : 0 < ((centres s).map (neutronRate ref tr psi L s.sourceType)).sum)
    {E : Type} (spectrum : Reaction → ℝ → Except Err E) (rings : List (Ring ℝ E))
    (h : s.toOpenmcR A spectrum = .ok rings) :
    List.Forall₂ (RingNear spectrum ref tr psi L s.sourceType (centres s)
        (3.6 * (2.3 * e + 3 * ((cells s : ℝ) + s.sourceType.length + 14) * u) + 2.01 * ((K + 3) * δ)))
      ((centres s).filter fun p => decide (0 < neutronRate ref tr psi L s.sourceType p)) rings := by
  have hu0 := hA.u_nonneg
  have hok := inside_ok hδ0 hδ hin hag
  have κ0 : 0 ≤ (K + 3) * δ := by positivity
  have δκ : δ ≤ (K + 3) * δ := by nlinarith
  obtain ⟨m0, m1⟩ := emission_near (L := L) hacc hK hcond hδ0 hδ hKδ hin hag
  have hpos' := (pos_iff_close m0 hKδ m1).2 hpos
  have H := C95_openmc hA hpi hQ he hacc hok hP hs hsmall hL hpos' spectrum rings h
  have hε0 : 0 ≤ 2.3 * e + 3 * ((cells s : ℝ) + s.sourceType.length + 14) * u := by positivity
  set ε := 2.3 * e + 3 * ((cells s : ℝ) + s.sourceType.length + 14) * u with hε
  have hf : ((centres s).filter fun p => decide (0 < neutronRate ref tr' psi' L s.sourceType p)) =
      (centres s).filter fun p => decide (0 < neutronRate ref tr psi L s.sourceType p) := by
    refine List.filter_congr fun p hp => ?_
    obtain ⟨c0, c1⟩ := neutronRate_near (L := L) hacc hK hcond hδ0 hδ hKδ hin hag hp
    rw [decide_eq_decide]
    exact pos_iff_close c0 hKδ c1
  rw [hf] at H
  rw [List.forall₂_iff_get] at H ⊢
  refine ⟨H.1, fun i i1 i2 => ?_⟩
  have R := H.2 i i1 i2
  have hmem := List.get_mem ((centres s).filter fun p => decide (0 < neutronRate ref tr psi L s.sourceType p)) ⟨i, i1⟩
  generalize ((centres s).filter fun p => decide (0 < neutronRate ref tr psi L s.sourceType p)).get ⟨i, i1⟩ = p at R hmem ⊢
  generalize rings.get ⟨i, i2⟩ = ring at R ⊢
  rw [List.mem_filter, decide_eq_true_eq] at hmem
  obtain ⟨hp, hpp⟩ := hmem
  obtain ⟨c0, c1⟩ := neutronRate_near (L := L) hacc hK hcond hδ0 hδ hKδ hin hag hp
  have up : ∀ {c a x : ℝ}, 0 ≤ x → |c - a| ≤ 3.5 * ε * a → |a - x| ≤ 2.01 * ((K + 3) * δ) * x →
      |c - x| ≤ (3.6 * ε + 2.01 * ((K + 3) * δ)) * x := by
    intro c a x hx h1 h2
    refine (combine hx (by positivity) hKδ h1 h2).trans (mul_le_mul_of_nonneg_right ?_ hx)
    nlinarith
  have le : 3.5 * ε ≤ 3.6 * ε + 2.01 * ((K + 3) * δ) := by nlinarith
  have wide : ∀ {x y : ℝ}, 0 ≤ y → x ≤ 3.5 * ε * y → x ≤ (3.6 * ε + 2.01 * ((K + 3) * δ)) * y := fun hy h =>
    h.trans (mul_le_mul_of_nonneg_right le hy)
  refine ⟨?_, ?_, R.weights.trans le, ?_, ?_⟩
  · obtain ⟨σ, e1, e2⟩ := R.strength
    exact ⟨σ, e1, up (div_nonneg c0 m0) e2 (ratio_close c0 hpos κ0 hKδ c1 m1)⟩
  · have hf2 : (s.sourceType.filter fun r => decide (0 < channelNeutrons ref tr' psi' L r p)) =
        s.sourceType.filter fun r => decide (0 < channelNeutrons ref tr psi L r p) := by
      refine List.filter_congr fun r hr => ?_
      obtain ⟨d0, d1⟩ := neutrons_near (L := L) hacc hK hcond hδ0 hδ hKδ hin hag hr hp
      rw [decide_eq_decide]
      exact pos_iff_close d0 hKδ d1
    have hen := R.energy
    rw [hf2] at hen
    rw [List.forall₂_iff_get] at hen ⊢
    refine ⟨hen.1, fun j j1 j2 => ?_⟩
    obtain ⟨q1, q2⟩ := hen.2 j j1 j2
    have hr := List.mem_of_mem_filter (List.get_mem (s.sourceType.filter fun r =>
      decide (0 < channelNeutrons ref tr psi L r p)) ⟨j, j1⟩)
    obtain ⟨d0, d1⟩ := neutrons_near (L := L) hacc hK hcond hδ0 hδ hKδ hin hag hr hp
    refine ⟨up (div_nonneg d0 c0) q1 (ratio_close d0 hpp κ0 hKδ d1 c1), _, ?_, q2⟩
    have hT := near_valueAt (hag p hp).temperature
    have t0 : 0 ≤ temperatureAt tr psi p := by
      have := (hin p hp).2.2.1
      norm_num at this; linarith
    refine le_trans hT (mul_le_mul_of_nonneg_right ?_ t0)
    nlinarith
  · obtain ⟨b1, b2, b3, b4⟩ := R.extent
    exact ⟨wide (by positivity) b1, wide (by positivity) b2, wide (by positivity) b3, wide (by positivity) b4⟩
  · intro l1 l2
    obtain ⟨b1, b2⟩ := R.density l1 l2
    exact ⟨wide (by positivity) b1, wide (by positivity) b2⟩

include hA hpi hQ he hacc hK hcond hδ0 hδ hKδ hin hag hP hs in
/-- C104.  SDEF files: the total of a file is the reaction rate of the plasma meant at the power `P`, its ion temperature
the mean weighted by the reaction rate, and its bins have the shares of the cells in the reactions of the plasma meant. -/
theorem C104_sdef {M : ℝ} (hres : Resolved A u pts oX oZ L M) (hu : u ≤ 1 / 10 ^ 9)
    (hsmall : 2.3 * e + 3 * ((cells s : ℝ) + s.sourceType.length + 14) * u ≤ 1 / 10 ^ 7)
    (hfar : ∀ p ∈ centres s, |p.1| + L ≤ 40000 * L ∧ |p.2| + L ≤ 40000 * L) (hne : centres s ≠ [])
    (stub : String) :
    ∃ files, s.toSdefR A stub = .ok files ∧
      files.map SdefFile.reaction = s.sourceType.filter (fun r => decide (0 < neutronYield r)) ∧
      ∀ f ∈ files, 0 < channelRate ref tr psi L (centres s) f.reaction →
        RelClose (3.6 * (2.3 * e + 3 * ((cells s : ℝ) + s.sourceType.length + 14) * u) + 2.01 * ((K + 3) * δ)) f.total
          (P * channelRate ref tr psi L (centres s) f.reaction / cellsPower ref Q tr psi L (centres s) s.sourceType) ∧
        (∃ T, f.ionTemp = .fin T ∧
          RelClose (3.6 * (2.3 * e + 3 * ((cells s : ℝ) + s.sourceType.length + 14) * u) + 2.01 * ((K + 5) * δ)) T
            (((centres s).map fun p => cellRate ref tr psi L f.reaction p * temperatureAt tr psi p).sum /
              channelRate ref tr psi L (centres s) f.reaction)) ∧
        ∀ (r : Neutronic) (cit : Citation), CleanCitation cit → Printable f.cards →
          ∃ text c, sdefText cit r f = .ok text ∧ readSdef (readCards 128 text) = some c ∧
            List.Forall₂ (fun p b => ∃ share, BinIdeal L (centres s) share p b ∧
                RelClose (2.01 * ((K + 3) * δ)) share
                  (cellRate ref tr psi L f.reaction p / channelRate ref tr psi L (centres s) f.reaction))
              (centres s) (sdefBins c) := by
  have hu0 := hA.u_nonneg
  have hok := inside_ok hδ0 hδ hin hag
  have κ0 : 0 ≤ (K + 3) * δ := by positivity
  have hε0 : 0 ≤ 2.3 * e + 3 * ((cells s : ℝ) + s.sourceType.length + 14) * u := by positivity
  obtain ⟨files, hf, hf1, hf2⟩ := C95_sdef hA hpi hQ he hacc hok hP hs hres hu hsmall hfar hne stub
  obtain ⟨hT, -⟩ := C93_strengths hA hpi hQ he hacc hok hP hs (hsmall.trans (by norm_num))
  obtain ⟨w0, w1⟩ := power_near (L := L) hQ hacc hK hcond hδ0 hδ hKδ hin hag
  have hT' := (pos_iff_close w0 hKδ w1).1 hT
  refine ⟨files, hf, hf1, fun f hfm hch => ?_⟩
  have hm : f.reaction ∈ s.sourceType := by
    have : f.reaction ∈ files.map SdefFile.reaction := List.mem_map_of_mem hfm
    rw [hf1] at this
    exact List.mem_of_mem_filter this
  obtain ⟨c0, c1⟩ := channel_near (L := L) hacc hK hcond hδ0 hδ hKδ hin hag hm
  obtain ⟨g1, ⟨T, g2, g3⟩, g4⟩ := (hf2 f hfm).2 ((pos_iff_close c0 hKδ c1).2 hch)
  set ε := 2.3 * e + 3 * ((cells s : ℝ) + s.sourceType.length + 14) * u with hε
  refine ⟨?_, ⟨T, g2, ?_⟩, fun r cit hc hpr => ?_⟩
  · have hq' := scale_near hP.le ⟨div_nonneg c0 hT'.le, ratio_close c0 hT' κ0 hKδ c1 w1⟩
    rw [mul_comm _ P, mul_comm _ P, ← mul_div_assoc, ← mul_div_assoc] at hq'
    refine (combine hq'.1 (by positivity) hKδ g1 hq'.2).trans (mul_le_mul_of_nonneg_right ?_ hq'.1)
    linarith
  · have t0 : ∀ p ∈ centres s, 0 ≤ temperatureAt tr psi p := by
      intro p hp
      have := (hin p hp).2.2.1
      norm_num at this; linarith
    have hprod : ∀ p ∈ centres s, 0 ≤ cellRate ref tr psi L f.reaction p * temperatureAt tr psi p ∧
        |cellRate ref tr' psi' L f.reaction p * temperatureAt tr' psi' p -
          cellRate ref tr psi L f.reaction p * temperatureAt tr psi p| ≤
        (K + 5) * δ * (cellRate ref tr psi L f.reaction p * temperatureAt tr psi p) := by
      intro p hp
      obtain ⟨d0, d1⟩ := rate_near (L := L) hacc hK hcond hδ0 hδ hKδ hin hag hm hp
      have hTp := near_valueAt (hag p hp).temperature
      change |temperatureAt tr' psi' p - temperatureAt tr psi p| ≤ δ * temperatureAt tr psi p at hTp
      have tp := t0 p hp
      refine ⟨mul_nonneg d0 tp, ?_⟩
      exact mul_near hδ0 hKδ d0 tp d1 hTp
    obtain ⟨s0, s1⟩ := map_sum_near _ hprod
    set w' := channelRate ref tr' psi' L (centres s) f.reaction
    set w := channelRate ref tr psi L (centres s) f.reaction
    set S' := ((centres s).map fun p => cellRate ref tr' psi' L f.reaction p * temperatureAt tr' psi' p).sum
    set S := ((centres s).map fun p => cellRate ref tr psi L f.reaction p * temperatureAt tr psi p).sum
    have κ5 : 0 ≤ (K + 5) * δ := by positivity
    have hq : |S' / w' - S / w| ≤ 2.01 * ((K + 5) * δ) * (S / w) :=
      quot_near s0 hch κ0 (by nlinarith) hKδ s1 c1
    have hx : 0 ≤ S / w := div_nonneg s0 c0
    clear_value S' S w' w ε
    have h3 := abs_sub_le T (S' / w') (S / w)
    have h4 := (abs_le.1 hq).2
    have g3' : |T - S' / w'| ≤ 3.5 * ε * (S' / w') := g3
    have h5 : 3.5 * ε * (S' / w') ≤ 3.5 * ε * (1.01 * (S / w)) := mul_le_mul_of_nonneg_left (by nlinarith) (by positivity)
    change |T - S / w| ≤ _
    have h6 := mul_nonneg hε0 hx
    linarith
  · obtain ⟨text, c, x1, x2, x3⟩ := g4 r cit hc hpr
    refine ⟨text, c, x1, x2, ?_⟩
    rw [List.forall₂_iff_get] at x3 ⊢
    refine ⟨x3.1, fun i i1 i2 => ⟨_, x3.2 i i1 i2, ?_⟩⟩
    obtain ⟨d0, d1⟩ := rate_near (L := L) hacc hK hcond hδ0 hδ hKδ hin hag hm (List.get_mem (centres s) ⟨i, i1⟩)
    exact ratio_close d0 hch κ0 hKδ d1 c1

end
end
end TNS
