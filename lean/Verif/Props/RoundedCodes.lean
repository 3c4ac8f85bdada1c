import Verif.Props.RoundedMcnpRun
/-
C117: OpenMC and MCNP, each from its own export of the same source, sample the same starting points in the mean, in floating
point.
-/

set_option autoImplicit false

namespace TNS
open Spec MeasureTheory
noncomputable section

/-- C117.  With binary64 numbers and a grid without gaps: the mean of a function of the starting point over the neutrons that
OpenMC samples from its rings, and that over a run of MCNP with all SDEF files, each with the share of the neutrons that its
header gives, differ by at most twice the change of the function over a cell and a relative 25e-6 (five printed digits). -/
theorem C117_binary64 {F : MathLib} (hF : AccurateLib F (4 * (2 : ℝ) ^ (-53 : ℤ)))
    {U : SI} {m : Masses ℝ} (hm : RoughData U m) {Q : Reaction → ℝ} (hQ : ∀ r, 0 < Q r)
    {pts : List (ℝ × ℝ)} {oX oZ : ℝ} {psi : ℝ → ℝ → ℝ} {tr : TransportView ℝ}
    {arg : SourceArg} {L : ℝ} {method : ReactivityMethod} {s : Source ℝ} {P : ℝ} (hP : 0 < P)
    (hs : Source.makeR binary64 F (reactivityXsR binary64 F (round53 Real.pi) U m) (round53 Real.pi) Q pts oX oZ psi tr
      arg L (some P) method = .ok s)
    (hok : PlasmaOK tr psi (centres s)) (hcold : ∀ p ∈ centres s, temperatureAt tr psi p ≤ 40)
    (haxis : ∀ p ∈ centres s, 5 / 8 * L ≤ p.1) (hN : cells s + s.sourceType.length ≤ 1000000)
    (hpos : 0 < ((centres s).map (neutronRate (referenceReactivity U m method) tr psi L s.sourceType)).sum)
    {M : ℝ} (hres : Resolved binary64 ((2 : ℝ) ^ (-53 : ℤ)) pts oX oZ L M)
    (hfar : ∀ p ∈ centres s, |p.1| + L ≤ 40000 * L ∧ |p.2| + L ≤ 40000 * L) (hgap : NoGaps L (centres s))
    {ke ks km kv : ℝ} (hke : ScaleFactor ((2 : ℝ) ^ (-53 : ℤ)) 1000 ke) (hks : ScaleFactor ((2 : ℝ) ^ (-53 : ℤ)) (1 / 1000) ks)
    (hkm : ScaleFactor ((2 : ℝ) ^ (-53 : ℤ)) (1 / 1000) km) (hkv : ScaleFactor ((2 : ℝ) ^ (-53 : ℤ)) 1000 kv)
    (spec : SpectrumMethod) (hspec : spec = .DATA → ∀ r ∈ s.sourceType, 0 < neutronYield r → r = .TT) (stub : String)
    {g : ℝ × ℝ → ℝ} (hg : Continuous g) {η G : ℝ} (hη : 0 ≤ η)
    (hclose : ∀ p ∈ centres s, ∀ q : ℝ × ℝ, |q.1 - p.1| ≤ L → |q.2 - p.2| ≤ L → |g q - g p| ≤ η)
    (hG : ∀ p ∈ centres s, |g p| ≤ G) :
    let occurs : SdefFile ℝ → Prop := fun f => 0 < channelRate (referenceReactivity U m method) tr psi L (centres s) f.reaction
    ∃ rings files, s.toOpenmcSourceR binary64 F (round53 Real.pi) ke ks kv spec = .ok rings ∧
      s.toSdefR binary64 stub = .ok files ∧
      ∀ cit : Neutronic → Citation, (∀ k, CleanCitation (cit k)) → (∀ f ∈ files, occurs f → Printable f.cards) →
        (∀ f ∈ files, occurs f → ∃ k text c, f.reaction = .n k ∧ sdefTextR binary64 ke ks km (cit k) k f = .ok text ∧
          readSdef (readCards 128 text) = some c) ∧
        ∀ read : SdefFile ℝ → SdefCards ℝ,
          (∀ f ∈ files, occurs f → ∀ k text, f.reaction = .n k → sdefTextR binary64 ke ks km (cit k) k f = .ok text →
            readSdef (readCards 128 text) = some (read f)) →
          |(files.map fun f => sdefWeight files f * mcnpMean g (read f)).sum - openmcMean (fun _ q => g q) rings| ≤
            (2 + 25 / 10 ^ 6) * η + 25 / 10 ^ 6 * G := by
  intro occurs
  have hL := hres.side
  obtain ⟨rings, hr, step1⟩ := openmc_cells hF hm hQ hP hs hok hcold haxis hN hpos hke hks hkv spec hspec hres
    (phi := fun _ q => g q) (fun _ => hg) (Φ := fun _ p => g p) hη
    (fun r _ _ p hp _ _ q h1 h2 => hclose p hp q (by linarith) (by linarith)) (fun r _ _ p hp => hG p hp)
  obtain ⟨files, hf, -, -, key⟩ := mcnp_run_cells hF hm hQ hP hs hok hN hpos hres hfar hgap hke hks hkm stub hg hη
    hclose hG
  refine ⟨rings, files, hr, hf, fun cit hcit hprint => ⟨(key cit hcit hprint).1, fun read hread => ?_⟩⟩
  have step2 := (key cit hcit hprint).2 read hread
  have e : ((centres s).map fun p => (s.sourceType.map fun r =>
      channelNeutrons (referenceReactivity U m method) tr psi L r p * g p).sum) =
      (centres s).map fun p => neutronRate (referenceReactivity U m method) tr psi L s.sourceType p * g p := by
    refine List.map_congr_left fun p _ => ?_
    rw [List.sum_map_mul_right, neutronRate]
  rw [e] at step1
  have hne : centres s ≠ [] := by
    intro e
    rw [e] at hpos
    simp at hpos
  have hG0 : 0 ≤ G := by
    obtain ⟨p, hp⟩ := List.exists_mem_of_ne_nil _ hne
    exact (abs_nonneg _).trans (hG p hp)
  generalize ((centres s).map fun p => neutronRate (referenceReactivity U m method) tr psi L s.sourceType p * g p).sum /
    ((centres s).map (neutronRate (referenceReactivity U m method) tr psi L s.sourceType)).sum = X at *
  rw [abs_sub_comm] at step1
  have tri := abs_sub_le (files.map fun f => sdefWeight files f * mcnpMean g (read f)).sum X (openmcMean (fun _ q => g q) rings)
  linarith

/-! ### The hypotheses are met: 500 MW of D-T from the rectangular plasma with flat profiles -/

namespace Ex

/-- The mean major radius of the neutrons that the two codes sample, with 30 cm cells. -/
example (psi : ℝ → ℝ → ℝ) : ∃ (s : Source ℝ) (rings : List (Ring ℝ NeutronDist)) (files : List (SdefFile ℝ)),
    s.sourceType = [.DT] ∧ rings ≠ [] ∧
    s.toOpenmcSourceR binary64 roundedLib (round53 Real.pi) 1000 (binary64.rd (1 / 1000)) 1000 .BALLABIO_GAUSSIAN = .ok rings ∧
    s.toSdefR binary64 "out" = .ok files ∧
    ∀ read : SdefFile ℝ → SdefCards ℝ, (∀ f ∈ files, Printable f.cards) →
      (∀ f ∈ files, ∀ k text, f.reaction = .n k →
        sdefTextR binary64 1000 (binary64.rd (1 / 1000)) (binary64.rd (1 / 1000)) Ex.citation k f = .ok text →
        readSdef (readCards 128 text) = some (read f)) →
      |(files.map fun f => sdefWeight files f * mcnpMean (fun q => q.1) (read f)).sum - openmcMean (fun _ q => q.1) rings| ≤
        (2 + 25 / 10 ^ 6) * (3 / 10) + 25 / 10 ^ 6 * 3.3 := by
  obtain ⟨U, m, hm⟩ : ∃ (U : SI) (m : Masses ℝ), RoughData U m := ⟨_, _, rough_measured⟩
  obtain ⟨s, hs, hst, hok, hN, hc, hne⟩ := Ex.dt_source psi hm
  have hx : ∀ p ∈ centres s, 1 / 2 ≤ p.1 := fun p hp => Ex.rect_radius p (hc ▸ hp)
  have ht : ∀ p : ℝ × ℝ, temperatureAt Ex.flat psi p = 10 := fun p => by simp [temperatureAt, valueAt, Ex.flat]
  have hpos := Ex.rate_sum_pos hm psi s.sourceType (by rw [hst]; simp) (centres s) hne (fun p hp => by linarith [hx p hp])
  have hb : ∀ p ∈ centres s, |p.1| ≤ 3.3 := by
    intro p hp
    rw [hc] at hp
    have := (centre_bounds rect_resolved hp).1
    linarith
  have hcold : ∀ p ∈ centres s, temperatureAt Ex.flat psi p ≤ 40 := fun p _ => by rw [ht]; norm_num
  obtain ⟨rings, files, k1, k2, k3⟩ := C117_binary64 accurate_libs.2 hm (fun _ => by norm_num) (by norm_num) hs hok
    hcold (fun p hp => by linarith [hx p hp]) hN hpos rect_resolved (by
      intro p hp
      rw [hc] at hp
      obtain ⟨e1, e2⟩ := Ex.rect_extent p hp
      constructor <;> linarith) (by rw [hc]; exact rect_no_gaps) scale_factors.1 scale_factors.2 scale_factors.2 scale_factors.1
    .BALLABIO_GAUSSIAN (by simp) "out"
    (g := Prod.fst) continuous_fst (η := 3 / 10) (G := 3.3) (by norm_num) (fun p _ q h1 _ => h1) hb
  obtain ⟨rings', j1, j2⟩ := C110_binary64 accurate_libs.2 hm (fun _ => by norm_num) (by norm_num) (by norm_num) hs hok
    hcold hN hpos scale_factors.1 scale_factors.2 scale_factors.1 .BALLABIO_GAUSSIAN (by simp)
  obtain rfl : rings = rings' := Except.ok.inj (k1.symm.trans j1)
  refine ⟨s, rings, files, hst, ?_, k1, k2, fun read hp hr =>
    (k3 (fun _ => Ex.citation) (fun _ => Ex.citation_clean) fun f hf _ => hp f hf).2 read fun f hf _ => hr f hf⟩
  intro e
  have hl := j2.length_eq
  rw [e] at hl
  have hnil := List.eq_nil_of_length_eq_zero hl
  obtain ⟨x, hx, h0⟩ : ∃ x ∈ (centres s).map (neutronRate (referenceReactivity U m .AUTO) flat psi (3 / 10) s.sourceType), 0 < x := by
    by_contra hno
    have hno : ∀ x ∈ (centres s).map (neutronRate (referenceReactivity U m .AUTO) flat psi (3 / 10) s.sourceType), x ≤ 0 :=
      fun x hx => not_lt.1 fun h => hno ⟨x, hx, h⟩
    exact absurd (List.sum_le_card_nsmul _ 0 hno) (by simpa using hpos)
  obtain ⟨p, hp, rfl⟩ := List.mem_map.1 hx
  exact absurd (decide_eq_true h0) (List.filter_eq_nil_iff.1 hnil p hp)

end Ex

end
end TNS
