import Verif.Props.RoundedInput
import Verif.Props.RoundedGridError
import Verif.Props.SourceLimit
import Verif.Spec.RoundedMean
/-
C114: the mean of any quantity over the neutrons that OpenMC samples from the sources exported in floating point is that over
the neutrons of the plasma, up to an explicit error.
-/

set_option autoImplicit false

namespace TNS
open Spec MeasureTheory
noncomputable section

/-- Two lists that correspond term by term have sums that differ by at most the sum of the differences. -/
theorem paired_sums {α β : Type} {R : α → β → Prop} {l : List α} {l' : List β} (h : List.Forall₂ R l l') (f : β → ℝ) (g c : α → ℝ)
    (hc : ∀ a ∈ l, ∀ b, R a b → |f b - g a| ≤ c a) : |(l'.map f).sum - (l.map g).sum| ≤ (l.map c).sum := by
  induction h with
  | nil => simp
  | @cons a b l l' h1 _ ih =>
    simp only [List.map_cons, List.sum_cons]
    rw [add_sub_add_comm]
    exact (abs_add_le _ _).trans (add_le_add (hc a (by simp) b h1) (ih fun x hx => hc x (List.mem_cons_of_mem _ hx)))

/-- A resolved grid is not more than 14 million cells away from the axes. -/
theorem resolved_near {A : Arith} {pts : List (ℝ × ℝ)} {oX oZ L M : ℝ} (h : Resolved A ((2 : ℝ) ^ (-53 : ℤ)) pts oX oZ L M) :
    M ≤ 14000000 * L := by
  obtain ⟨-, hM0, -⟩ := strip_nonneg h
  have hL := h.side
  have hε := h.resolved
  unfold gridTol at hε
  have hu : (2 : ℝ) ^ (-53 : ℤ) = 1 / 9007199254740992 := by
    rw [zpow_neg, show (53 : ℤ) = ((53 : ℕ) : ℤ) by norm_num, zpow_natCast]
    norm_num
  rw [hu] at hε
  set ρ := M / L with hρ
  have hML : M = ρ * L := by rw [hρ]; field_simp
  have h0 : 0 ≤ ρ := div_nonneg hM0 hL.le
  have e : 3 * (2 * M / L + 20) * (1 / 9007199254740992 * (M + 3 * L)) = 3 * (2 * ρ + 20) * (1 / 9007199254740992 * (ρ + 3)) * L := by
    rw [mul_div_assoc, ← hρ, hML]; ring
  rw [e] at hε
  have k : 3 * (2 * ρ + 20) * (1 / 9007199254740992 * (ρ + 3)) ≤ 1 / 8 := by
    by_contra hn
    push Not at hn
    have := mul_lt_mul_of_pos_right hn hL
    linarith
  have : ρ ≤ 14000000 := by
    by_contra hn
    push Not at hn
    nlinarith
  rw [hML]
  exact mul_le_mul_of_nonneg_right this hL.le

/-- The computed centres lie in the box of the LCFS, up to a cell side. -/
theorem centre_bounds {A : Arith} {u : ℝ} {pts : List (ℝ × ℝ)} {oX oZ L M : ℝ} (h : Resolved A u pts oX oZ L M) {p : ℝ × ℝ}
    (hp : p ∈ samplePointsR A pts oX oZ L) : |p.1| ≤ M + L ∧ |p.2| ≤ M + L := by
  have hL := h.side
  have hε := h.resolved
  obtain ⟨q, -, ⟨q1, q2⟩, h3⟩ := C79_sampled A u pts oX oZ L M h p hp
  have t1 := abs_sub_abs_le_abs_sub p.1 q.1
  have t2 := abs_sub_abs_le_abs_sub p.2 q.2
  have key : |q.1| ≤ M + 2 * gridTol u M L ∧ |q.2| ≤ M + 2 * gridTol u M L := by
    obtain ⟨t0, -, -⟩ := strip_nonneg h
    rcases h3 with k | ⟨s, hs, k1, k2⟩
    · refine ⟨(inside_radius h k).trans (by linarith), ?_⟩
      obtain ⟨-, -, ⟨a, ha, ha'⟩, ⟨b, hb, hb'⟩⟩ := C65_within_box pts q k
      obtain ⟨a, ha1, rfl⟩ := List.mem_map.1 ha
      obtain ⟨b, hb1, rfl⟩ := List.mem_map.1 hb
      have h1 := abs_le.1 (h.bound a ha1).2
      have h2 := abs_le.1 (h.bound b hb1).2
      rw [abs_le]; constructor <;> linarith [h1.1, h2.2]
    · have b := onLine_radius h hs
      have b2 : |s.2| ≤ M := by
        obtain ⟨i, hi, t, c0, c1, -, e1⟩ := hs
        have h1 := abs_le.1 (h.bound _ (List.getElem_mem (show i < pts.length by omega))).2
        have h2 := abs_le.1 (h.bound _ (List.getElem_mem hi)).2
        have e : s.2 = (1 - t) * pts[i].2 + t * pts[i + 1].2 := by rw [e1]; ring
        rw [e, abs_le]
        constructor <;> nlinarith
      have w1 := abs_sub_abs_le_abs_sub q.1 s.1
      have w2 := abs_sub_abs_le_abs_sub q.2 s.2
      rw [abs_sub_comm] at w1 w2
      constructor <;> linarith
  constructor <;> linarith [key.1, key.2]

/-- The mean over one exported source is near any number that the function is near around the cell. -/
theorem ringOf_mean {spec : SpectrumMethod} {sv : Reaction → ℝ → ℝ} {tr : TransportView ℝ} {psi : ℝ → ℝ → ℝ} {L : ℝ}
    {st : List Reaction} {cs : List (ℝ × ℝ)} {p : ℝ × ℝ} {ring : Ring ℝ NeutronDist}
    (h : RingOf spec sv tr psi L st cs (4 / 10 ^ 9) p ring) (hL : 0 < L) (h1 : |p.1| + L ≤ 14000002 * L)
    (h2 : |p.2| + L ≤ 14000002 * L) (hx : 5 / 8 * L ≤ p.1) {g : ℝ × ℝ → ℝ} (hg : Continuous g) {c η : ℝ} (hη : 0 ≤ η)
    (hc : ∀ q : ℝ × ℝ, |q.1 - p.1| ≤ 5 / 8 * L → |q.2 - p.2| ≤ 5 / 8 * L → |g q - c| ≤ η) : |ringMean g ring - c| ≤ η := by
  obtain ⟨a, b, d, e⟩ := h.extent
  have a := abs_le.1 a
  have b := abs_le.1 b
  have d := abs_le.1 d
  have e := abs_le.1 e
  have k0 : 0 < ring.rLo := by linarith
  have k1 : ring.rLo < ring.rHi := by linarith
  obtain ⟨f1, f2⟩ := h.density k0.le (by linarith)
  have f1 := abs_le.1 f1
  have f2 := abs_le.1 f2
  have g1 : 0 ≤ ring.rLo / (ring.rLo + ring.rHi) := div_nonneg k0.le (by linarith)
  have g2 : 0 < ring.rHi / (ring.rLo + ring.rHi) := div_pos (by linarith) (by linarith)
  refine boxMean_close hg k1 (by linarith) (by linarith) (by linarith) hη ?_
  intro x z x1 x2 z1 z2
  refine hc _ ?_ ?_
  · rw [abs_le]; constructor <;> simp only <;> linarith
  · rw [abs_le]; constructor <;> simp only <;> linarith

/-- What one exported source contributes to a mean. -/
theorem ringOf_share {spec : SpectrumMethod} {sv : Reaction → ℝ → ℝ} {tr : TransportView ℝ} {psi : ℝ → ℝ → ℝ} {L : ℝ}
    {st : List Reaction} {cs : List (ℝ × ℝ)} {p : ℝ × ℝ} {ring : Ring ℝ NeutronDist}
    (h : RingOf spec sv tr psi L st cs (4 / 10 ^ 9) p ring) (hL : 0 < L) (h1 : |p.1| + L ≤ 14000002 * L)
    (h2 : |p.2| + L ≤ 14000002 * L) (hx : 5 / 8 * L ≤ p.1) (hn : ∀ r ∈ st, 0 ≤ channelNeutrons sv tr psi L r p)
    (hp : 0 < neutronRate sv tr psi L st p) (hN : 0 < (cs.map (neutronRate sv tr psi L st)).sum)
    {phi : NeutronDist → ℝ × ℝ → ℝ} (hphi : ∀ d, Continuous (phi d)) {Φ : Reaction → ℝ × ℝ → ℝ} {η G : ℝ} (hη : 0 ≤ η)
    (hc : QuantityClose spec tr psi L st [p] phi Φ η)
    (hG : ∀ r ∈ st, 0 < neutronYield r → |Φ r p| ≤ G) :
    |finValue ring.strength * (ring.energy.map fun q => q.1 * ringMean (phi q.2) ring).sum -
        (st.map fun r => channelNeutrons sv tr psi L r p * Φ r p).sum / (cs.map (neutronRate sv tr psi L st)).sum| ≤
      ((1 + 9 / 10 ^ 9) * η + 9 / 10 ^ 9 * G) *
        (neutronRate sv tr psi L st p / (cs.map (neutronRate sv tr psi L st)).sum) := by
  set N := (cs.map (neutronRate sv tr psi L st)).sum with hNd
  obtain ⟨σ, hσ, hσr⟩ := h.strength
  rw [hσ]
  simp only [finValue]
  rw [← List.sum_map_mul_left]
  have key := paired_sums h.energy (fun q => σ * (q.1 * ringMean (phi q.2) ring))
    (fun r => channelNeutrons sv tr psi L r p * Φ r p / N)
    (fun r => ((1 + 9 / 10 ^ 9) * η + 9 / 10 ^ 9 * G) * (channelNeutrons sv tr psi L r p / N)) (by
      intro r hr q ⟨hw, hlaw⟩
      obtain ⟨hr, hr0⟩ := List.mem_filter.1 hr
      have hr0 : 0 < channelNeutrons sv tr psi L r p := by simpa using hr0
      have hy : 0 < neutronYield r := by
        rcases Nat.eq_zero_or_pos (neutronYield r) with h0 | h0
        · simp [channelNeutrons, h0] at hr0
        · exact h0
      have hm := ringOf_mean h hL h1 h2 hx (hphi q.2) (c := Φ r p) hη (hc r hr hy p (by simp) q.2 hlaw)
      have hprod := relClose_mul (div_pos hp hN).le (div_pos hr0 hp).le (by norm_num) hσr hw
      have e : neutronRate sv tr psi L st p / N * (channelNeutrons sv tr psi L r p / neutronRate sv tr psi L st p) =
          channelNeutrons sv tr psi L r p / N := by
        field_simp
      rw [e] at hprod
      unfold RelClose at hprod
      have x0 : 0 < channelNeutrons sv tr psi L r p / N := div_pos hr0 hN
      have hG := hG r hr hy
      have e2 : channelNeutrons sv tr psi L r p * Φ r p / N = channelNeutrons sv tr psi L r p / N * Φ r p := by ring
      rw [e2]
      generalize channelNeutrons sv tr psi L r p / N = x at *
      generalize ringMean (phi q.2) ring = m at *
      have e3 : σ * (q.1 * m) - x * Φ r p = σ * q.1 * (m - Φ r p) + (σ * q.1 - x) * Φ r p := by ring
      have hd : |σ * q.1 - x| ≤ 9 / 10 ^ 9 * x := hprod.trans (mul_le_mul_of_nonneg_right (by norm_num) x0.le)
      have hs : |σ * q.1| ≤ (1 + 9 / 10 ^ 9) * x := by
        have := abs_sub_abs_le_abs_sub (σ * q.1) x
        rw [abs_of_pos x0] at this
        linarith
      rw [e3]
      refine (abs_add_le _ _).trans ?_
      rw [abs_mul, abs_mul (σ * q.1 - x)]
      have m1 := mul_le_mul hs hm (abs_nonneg _) (by positivity)
      have m2 := mul_le_mul hd hG (abs_nonneg _) (by positivity)
      linarith)
  rw [sum_filter_zero, sum_filter_zero] at key
  · have e1 : (st.map fun r => channelNeutrons sv tr psi L r p * Φ r p / N).sum =
        (st.map fun r => channelNeutrons sv tr psi L r p * Φ r p).sum / N := by
      simp only [div_eq_mul_inv]
      rw [List.sum_map_mul_right]
    have e2 : (st.map fun r => ((1 + 9 / 10 ^ 9) * η + 9 / 10 ^ 9 * G) * (channelNeutrons sv tr psi L r p / N)).sum =
        ((1 + 9 / 10 ^ 9) * η + 9 / 10 ^ 9 * G) * (neutronRate sv tr psi L st p / N) := by
      rw [List.sum_map_mul_left]
      simp only [div_eq_mul_inv]
      rw [List.sum_map_mul_right]
      rfl
    rwa [e1, e2] at key
  · intro r hr hq
    have : ¬ 0 < channelNeutrons sv tr psi L r p := by simpa using hq
    rw [le_antisymm (not_lt.1 this) (hn r hr)]; simp
  · intro r hr hq
    have : ¬ 0 < channelNeutrons sv tr psi L r p := by simpa using hq
    rw [le_antisymm (not_lt.1 this) (hn r hr)]; simp

/-- The mean over the neutrons that OpenMC samples, in terms of the cells. -/
theorem openmc_cells {F : MathLib} (hF : AccurateLib F (4 * (2 : ℝ) ^ (-53 : ℤ)))
    {U : SI} {m : Masses ℝ} (hm : RoughData U m) {Q : Reaction → ℝ} (hQ : ∀ r, 0 < Q r)
    {pts : List (ℝ × ℝ)} {oX oZ : ℝ} {psi : ℝ → ℝ → ℝ} {tr : TransportView ℝ}
    {arg : SourceArg} {L : ℝ} {method : ReactivityMethod} {s : Source ℝ} {P : ℝ} (hP : 0 < P)
    (hs : Source.makeR binary64 F (reactivityXsR binary64 F (round53 Real.pi) U m) (round53 Real.pi) Q pts oX oZ psi tr
      arg L (some P) method = .ok s)
    (hok : PlasmaOK tr psi (centres s)) (hcold : ∀ p ∈ centres s, temperatureAt tr psi p ≤ 40)
    (haxis : ∀ p ∈ centres s, 5 / 8 * L ≤ p.1) (hN : cells s + s.sourceType.length ≤ 1000000)
    (hpos : 0 < ((centres s).map (neutronRate (referenceReactivity U m method) tr psi L s.sourceType)).sum)
    {ke ks kv : ℝ} (hke : ScaleFactor ((2 : ℝ) ^ (-53 : ℤ)) 1000 ke) (hks : ScaleFactor ((2 : ℝ) ^ (-53 : ℤ)) (1 / 1000) ks)
    (hkv : ScaleFactor ((2 : ℝ) ^ (-53 : ℤ)) 1000 kv) (spec : SpectrumMethod)
    (hspec : spec = .DATA → ∀ r ∈ s.sourceType, 0 < neutronYield r → r = .TT)
    {M : ℝ} (hres : Resolved binary64 ((2 : ℝ) ^ (-53 : ℤ)) pts oX oZ L M)
    {phi : NeutronDist → ℝ × ℝ → ℝ} (hphi : ∀ d, Continuous (phi d)) {Φ : Reaction → ℝ × ℝ → ℝ} {η G : ℝ} (hη : 0 ≤ η)
    (hclose : QuantityClose spec tr psi L s.sourceType (centres s) phi Φ η)
    (hG : ∀ r ∈ s.sourceType, 0 < neutronYield r → ∀ p ∈ centres s, |Φ r p| ≤ G) :
    ∃ rings, s.toOpenmcSourceR binary64 F (round53 Real.pi) ke ks kv spec = .ok rings ∧
      |openmcMean phi rings - ((centres s).map fun p => (s.sourceType.map fun r =>
            channelNeutrons (referenceReactivity U m method) tr psi L r p * Φ r p).sum).sum /
          ((centres s).map (neutronRate (referenceReactivity U m method) tr psi L s.sourceType)).sum| ≤
        (1 + 9 / 10 ^ 9) * η + 9 / 10 ^ 9 * G := by
  have hL := hres.side
  obtain ⟨rings, hr, hall⟩ := C110_binary64 hF hm hQ hL.le hP hs hok hcold hN hpos hke hks hkv spec hspec
  refine ⟨rings, hr, ?_⟩
  have hcs := (C93_cells hs).2
  have h53 := u53
  have hp : (0 : ℝ) < (2 : ℝ) ^ (-53 : ℤ) := by positivity
  have hpi : |round53 Real.pi - Real.pi| ≤ (2 : ℝ) ^ (-53 : ℤ) * Real.pi := by
    have := C74_binary64.rel Real.pi
    rwa [abs_of_pos Real.pi_pos] at this
  have hacc := fun r => all_accurate C74_binary64 hF (by linarith) (by linarith) hpi hm method r
  have hrate : ∀ r, ∀ p ∈ centres s, 0 ≤ rateAt (referenceReactivity U m method) tr psi r p := by
    intro r p hp
    obtain ⟨p1, p2, p3, p4⟩ := hok _ hp
    exact rateDensity_nonneg' _ p2 _ ((hacc r).pos _ p3 p4).le r
  have hchan : ∀ r, ∀ p ∈ centres s, 0 ≤ channelNeutrons (referenceReactivity U m method) tr psi L r p := by
    intro r p hp
    have h0 := hrate r p hp
    have := (hok _ hp).1
    have := Real.pi_pos
    unfold channelNeutrons cellRate
    unfold rateAt at h0
    positivity
  have hnear := resolved_near hres
  have hb : ∀ p ∈ centres s, |p.1| + L ≤ 14000002 * L ∧ |p.2| + L ≤ 14000002 * L := by
    intro p hp
    rw [hcs] at hp
    have := centre_bounds hres hp
    constructor <;> linarith [this.1, this.2]
  -- sums over the cells
  have sumN : ∀ p : ℝ × ℝ, neutronRate (referenceReactivity U m method) tr psi L s.sourceType p =
      neutronsAt (referenceReactivity U m method) tr psi s.sourceType p * (2 * Real.pi * p.1 * L ^ 2) := by
    intro p
    unfold neutronRate neutronsAt
    rw [← List.sum_map_mul_right]
    refine congrArg List.sum (List.map_congr_left fun r _ => ?_)
    unfold channelNeutrons cellRate rateAt
    ring
  have sumA : ∀ p : ℝ × ℝ, (s.sourceType.map fun r => channelNeutrons (referenceReactivity U m method) tr psi L r p * Φ r p).sum =
      weightedNeutronsAt (referenceReactivity U m method) tr psi s.sourceType Φ p * (2 * Real.pi * p.1 * L ^ 2) := by
    intro p
    unfold weightedNeutronsAt
    rw [← List.sum_map_mul_right]
    refine congrArg List.sum (List.map_congr_left fun r _ => ?_)
    unfold channelNeutrons cellRate rateAt
    ring
  -- the export
  set N := ((centres s).map (neutronRate (referenceReactivity U m method) tr psi L s.sourceType)).sum with hNd
  set a : ℝ × ℝ → ℝ := fun p => (s.sourceType.map fun r => channelNeutrons (referenceReactivity U m method) tr psi L r p * Φ r p).sum
    with had
  set K := (1 + 9 / 10 ^ 9) * η + 9 / 10 ^ 9 * G with hK
  have step := paired_sums hall (fun ring => finValue ring.strength * (ring.energy.map fun q => q.1 * ringMean (phi q.2) ring).sum)
    (fun p => a p / N) (fun p => K * (neutronRate (referenceReactivity U m method) tr psi L s.sourceType p / N)) (by
      intro p hp ring hring
      obtain ⟨hp, hp0⟩ := List.mem_filter.1 hp
      have hp0 : 0 < neutronRate (referenceReactivity U m method) tr psi L s.sourceType p := by simpa using hp0
      refine ringOf_share hring hL (hb p hp).1 (hb p hp).2 (haxis p hp) (fun r _ => hchan r p hp) hp0 hpos hphi hη ?_
        fun r hr hy => hG r hr hy p hp
      intro r hr hy p' hp' d hd q q1 q2
      rw [List.mem_singleton.1 hp'] at hd q1 q2 ⊢
      exact hclose r hr hy p hp d hd q q1 q2)
  have zero : ∀ p ∈ centres s, decide (0 < neutronRate (referenceReactivity U m method) tr psi L s.sourceType p) = false →
      neutronRate (referenceReactivity U m method) tr psi L s.sourceType p = 0 ∧ a p = 0 := by
    intro p hp hq
    have hq : ¬ 0 < neutronRate (referenceReactivity U m method) tr psi L s.sourceType p := by simpa using hq
    have hnn : ∀ b ∈ s.sourceType.map fun r => channelNeutrons (referenceReactivity U m method) tr psi L r p, 0 ≤ b := by
      intro b hb
      obtain ⟨r, -, rfl⟩ := List.mem_map.1 hb
      exact hchan r p hp
    have h0 : neutronRate (referenceReactivity U m method) tr psi L s.sourceType p = 0 :=
      le_antisymm (not_lt.1 hq) (List.sum_nonneg hnn)
    refine ⟨h0, ?_⟩
    refine List.sum_eq_zero ?_
    intro b hb
    obtain ⟨r, hr, rfl⟩ := List.mem_map.1 hb
    have := List.single_le_sum hnn _ (List.mem_map.2 ⟨r, hr, rfl⟩)
    have h0' : (s.sourceType.map fun r => channelNeutrons (referenceReactivity U m method) tr psi L r p).sum = 0 := h0
    rw [le_antisymm (this.trans h0'.le) (hchan r p hp), zero_mul]
  rw [sum_filter_zero _ _ _ (fun p hp hq => by rw [(zero p hp hq).2, zero_div]),
    sum_filter_zero _ _ _ (fun p hp hq => by rw [(zero p hp hq).1]; simp)] at step
  change |openmcMean phi rings - _| ≤ _ at step
  have e1 : ((centres s).map fun p => a p / N).sum = ((centres s).map a).sum / N := by
    simp only [div_eq_mul_inv]
    rw [List.sum_map_mul_right]
  have e2 : ((centres s).map fun p => K * (neutronRate (referenceReactivity U m method) tr psi L s.sourceType p / N)).sum = K := by
    rw [List.sum_map_mul_left]
    simp only [div_eq_mul_inv]
    rw [List.sum_map_mul_right]
    change K * (N * N⁻¹) = K
    rw [mul_inv_cancel₀ hpos.ne', mul_one]
  rw [e1, e2] at step
  exact step

/-- C114.  With binary64 numbers and every source type, reactivity method and spectrum method: the mean of a quantity over the
neutrons that OpenMC samples from the exported sources is its mean over the neutrons of the plasma, up to the change of the
quantity over a cell, a relative 9e-9, and the discretisation errors of first order in the cell side. -/
theorem C114_binary64 {F : MathLib} (hF : AccurateLib F (4 * (2 : ℝ) ^ (-53 : ℤ)))
    {U : SI} {m : Masses ℝ} (hm : RoughData U m) {Q : Reaction → ℝ} (hQ : ∀ r, 0 < Q r)
    {pts : List (ℝ × ℝ)} {oX oZ : ℝ} {psi : ℝ → ℝ → ℝ} {tr : TransportView ℝ}
    {arg : SourceArg} {L : ℝ} {method : ReactivityMethod} {s : Source ℝ} {P : ℝ} (hP : 0 < P)
    (hs : Source.makeR binary64 F (reactivityXsR binary64 F (round53 Real.pi) U m) (round53 Real.pi) Q pts oX oZ psi tr
      arg L (some P) method = .ok s)
    (hok : PlasmaOK tr psi (centres s)) (hcold : ∀ p ∈ centres s, temperatureAt tr psi p ≤ 40)
    (haxis : ∀ p ∈ centres s, 5 / 8 * L ≤ p.1) (hN : cells s + s.sourceType.length ≤ 1000000)
    (hpos : 0 < ((centres s).map (neutronRate (referenceReactivity U m method) tr psi L s.sourceType)).sum)
    {ke ks kv : ℝ} (hke : ScaleFactor ((2 : ℝ) ^ (-53 : ℤ)) 1000 ke) (hks : ScaleFactor ((2 : ℝ) ^ (-53 : ℤ)) (1 / 1000) ks)
    (hkv : ScaleFactor ((2 : ℝ) ^ (-53 : ℤ)) 1000 kv) (spec : SpectrumMethod)
    (hspec : spec = .DATA → ∀ r ∈ s.sourceType, 0 < neutronYield r → r = .TT)
    {M : ℝ} (hres : Resolved binary64 ((2 : ℝ) ^ (-53 : ℤ)) pts oX oZ L M) (σ : ℤ) (hw : WindsOnce pts σ)
    {phi : NeutronDist → ℝ × ℝ → ℝ} (hphi : ∀ d, Continuous (phi d)) {Φ : Reaction → ℝ × ℝ → ℝ} {η G : ℝ} (hη : 0 ≤ η)
    (hG0 : 0 ≤ G) (hclose : QuantityClose spec tr psi L s.sourceType (centres s) phi Φ η)
    (hG : ∀ r ∈ s.sourceType, 0 < neutronYield r → ∀ p ∈ centres s, |Φ r p| ≤ G)
    {C ω C' ω' : ℝ} (hC : 0 ≤ C) (hω : 0 ≤ ω) (hC' : 0 ≤ C') (hω' : 0 ≤ ω')
    (hν : Gentle pts (centres s) L (neutronsAt (referenceReactivity U m method) tr psi s.sourceType) C ω)
    (he : Gentle pts (centres s) L (weightedNeutronsAt (referenceReactivity U m method) tr psi s.sourceType Φ) C' ω')
    (hI : 0 < insideIntegral pts (neutronsAt (referenceReactivity U m method) tr psi s.sourceType)) :
    let u := (2 : ℝ) ^ (-53 : ℤ)
    let I := insideIntegral pts (neutronsAt (referenceReactivity U m method) tr psi s.sourceType)
    ∃ rings, s.toOpenmcSourceR binary64 F (round53 Real.pi) ke ks kv spec = .ok rings ∧
      |openmcMean phi rings -
          insideIntegral pts (weightedNeutronsAt (referenceReactivity U m method) tr psi s.sourceType Φ) / I| ≤
        (1 + 9 / 10 ^ 9) * η + 9 / 10 ^ 9 * G + (rateError u M L pts C' ω' + G * rateError u M L pts C ω) / I := by
  intro u I
  have hL := hres.side
  obtain ⟨rings, hr, step⟩ := openmc_cells hF hm hQ hP hs hok hcold haxis hN hpos hke hks hkv spec hspec hres hphi hη hclose hG
  refine ⟨rings, hr, ?_⟩
  have hcs := (C93_cells hs).2
  have h53 := u53
  have hp : (0 : ℝ) < (2 : ℝ) ^ (-53 : ℤ) := by positivity
  have hpi : |round53 Real.pi - Real.pi| ≤ (2 : ℝ) ^ (-53 : ℤ) * Real.pi := by
    have := C74_binary64.rel Real.pi
    rwa [abs_of_pos Real.pi_pos] at this
  have hacc := fun r => all_accurate C74_binary64 hF (by linarith) (by linarith) hpi hm method r
  have hrate : ∀ r, ∀ p ∈ centres s, 0 ≤ rateAt (referenceReactivity U m method) tr psi r p := by
    intro r p hp
    obtain ⟨p1, p2, p3, p4⟩ := hok _ hp
    exact rateDensity_nonneg' _ p2 _ ((hacc r).pos _ p3 p4).le r
  have hchan : ∀ r, ∀ p ∈ centres s, 0 ≤ channelNeutrons (referenceReactivity U m method) tr psi L r p := by
    intro r p hp
    have h0 := hrate r p hp
    have := (hok _ hp).1
    have := Real.pi_pos
    unfold channelNeutrons cellRate
    unfold rateAt at h0
    positivity
  -- sums over the cells
  have sumN : ∀ p : ℝ × ℝ, neutronRate (referenceReactivity U m method) tr psi L s.sourceType p =
      neutronsAt (referenceReactivity U m method) tr psi s.sourceType p * (2 * Real.pi * p.1 * L ^ 2) := by
    intro p
    unfold neutronRate neutronsAt
    rw [← List.sum_map_mul_right]
    refine congrArg List.sum (List.map_congr_left fun r _ => ?_)
    unfold channelNeutrons cellRate rateAt
    ring
  have sumA : ∀ p : ℝ × ℝ, (s.sourceType.map fun r => channelNeutrons (referenceReactivity U m method) tr psi L r p * Φ r p).sum =
      weightedNeutronsAt (referenceReactivity U m method) tr psi s.sourceType Φ p * (2 * Real.pi * p.1 * L ^ 2) := by
    intro p
    unfold weightedNeutronsAt
    rw [← List.sum_map_mul_right]
    refine congrArg List.sum (List.map_congr_left fun r _ => ?_)
    unfold channelNeutrons cellRate rateAt
    ring
  have dN := C113_sum hres σ hw _ C ω hC hω (by rw [hcs] at hν; exact hν)
  have dA := C113_sum hres σ hw _ C' ω' hC' hω' (by rw [hcs] at he; exact he)
  rw [← hcs] at dN dA
  set N := ((centres s).map (neutronRate (referenceReactivity U m method) tr psi L s.sourceType)).sum with hNd
  set a : ℝ × ℝ → ℝ := fun p => (s.sourceType.map fun r => channelNeutrons (referenceReactivity U m method) tr psi L r p * Φ r p).sum
    with had
  have e3 : ((centres s).map fun p => neutronsAt (referenceReactivity U m method) tr psi s.sourceType p *
      (2 * Real.pi * p.1 * L ^ 2)).sum = N := by
    rw [hNd]
    exact congrArg List.sum (List.map_congr_left fun p _ => (sumN p).symm)
  have e4 : ((centres s).map fun p => weightedNeutronsAt (referenceReactivity U m method) tr psi s.sourceType Φ p *
      (2 * Real.pi * p.1 * L ^ 2)).sum = ((centres s).map a).sum :=
    congrArg List.sum (List.map_congr_left fun p _ => (sumA p).symm)
  rw [e3] at dN
  rw [e4] at dA
  change |N - I| ≤ _ at dN
  change |_ - insideIntegral pts (weightedNeutronsAt (referenceReactivity U m method) tr psi s.sourceType Φ)| ≤ _ at dA
  -- the mean over the cells is at most `G`
  have hA : |((centres s).map a).sum| ≤ G * N := by
    have hcell : ∀ p ∈ centres s, |a p| ≤ G * neutronRate (referenceReactivity U m method) tr psi L s.sourceType p := by
      intro p hp
      have : ∀ l : List Reaction, (∀ r ∈ l, r ∈ s.sourceType) →
          |(l.map fun r => channelNeutrons (referenceReactivity U m method) tr psi L r p * Φ r p).sum| ≤
            G * (l.map fun r => channelNeutrons (referenceReactivity U m method) tr psi L r p).sum := by
        intro l hl
        induction l with
        | nil => simp
        | cons r l ih =>
          simp only [List.map_cons, List.sum_cons]
          have ih := ih fun x hx => hl x (List.mem_cons_of_mem _ hx)
          refine (abs_add_le _ _).trans ?_
          have h0 := hchan r p hp
          have : |channelNeutrons (referenceReactivity U m method) tr psi L r p * Φ r p| ≤
              channelNeutrons (referenceReactivity U m method) tr psi L r p * G := by
            rcases Nat.eq_zero_or_pos (neutronYield r) with hy | hy
            · simp [channelNeutrons, hy]
            · rw [abs_mul, abs_of_nonneg h0]
              exact mul_le_mul_of_nonneg_left (hG r (hl r (by simp)) hy p hp) h0
          linarith
      exact this s.sourceType fun r hr => hr
    have : ∀ l : List (ℝ × ℝ), (∀ p ∈ l, p ∈ centres s) → |(l.map a).sum| ≤
        G * (l.map (neutronRate (referenceReactivity U m method) tr psi L s.sourceType)).sum := by
      intro l hl
      induction l with
      | nil => simp
      | cons p l ih =>
        simp only [List.map_cons, List.sum_cons]
        have ih := ih fun x hx => hl x (List.mem_cons_of_mem _ hx)
        have := hcell p (hl p (by simp))
        refine (abs_add_le _ _).trans ?_
        linarith
    exact this _ fun p hp => hp
  have main : |((centres s).map a).sum / N -
      insideIntegral pts (weightedNeutronsAt (referenceReactivity U m method) tr psi s.sourceType Φ) / I| ≤
      (rateError u M L pts C' ω' + G * rateError u M L pts C ω) / I := by
    have hI' : 0 < I := hI
    generalize insideIntegral pts (weightedNeutronsAt (referenceReactivity U m method) tr psi s.sourceType Φ) = J at *
    generalize ((centres s).map a).sum = X at *
    have e : X / N - J / I = ((X - J) + X / N * (I - N)) / I := by
      field_simp
      ring
    have hXN : |X / N| ≤ G := by
      rw [abs_div, abs_of_pos hpos, div_le_iff₀ hpos]
      exact hA
    rw [e, abs_div, abs_of_pos hI']
    refine div_le_div_of_nonneg_right ((abs_add_le _ _).trans (add_le_add dA ?_)) hI'.le
    rw [abs_mul, abs_sub_comm]
    exact mul_le_mul hXN dN (abs_nonneg _) hG0
  have tri := abs_sub_le (openmcMean phi rings) (((centres s).map a).sum / N)
    (insideIntegral pts (weightedNeutronsAt (referenceReactivity U m method) tr psi s.sourceType Φ) / I)
  linarith

variable {F : MathLib} {U : SI} {m : Masses ℝ} {Q : Reaction → ℝ} {pts : List (ℝ × ℝ)} {oX oZ : ℝ} {psi : ℝ → ℝ → ℝ}
  {tr : TransportView ℝ} {arg : SourceArg} {L : ℝ} {method : ReactivityMethod} {s : Source ℝ} {P : ℝ} {ke ks kv : ℝ}
  {spec : SpectrumMethod} {M : ℝ}

/-- C114, starting points: the mean of a function of the starting point that changes by at most `η` around the centres. -/
theorem C114_positions (hF : AccurateLib F (4 * (2 : ℝ) ^ (-53 : ℤ)))
    (hm : RoughData U m) (hQ : ∀ r, 0 < Q r) (hP : 0 < P)
    (hs : Source.makeR binary64 F (reactivityXsR binary64 F (round53 Real.pi) U m) (round53 Real.pi) Q pts oX oZ psi tr
      arg L (some P) method = .ok s)
    (hok : PlasmaOK tr psi (centres s)) (hcold : ∀ p ∈ centres s, temperatureAt tr psi p ≤ 40)
    (haxis : ∀ p ∈ centres s, 5 / 8 * L ≤ p.1) (hN : cells s + s.sourceType.length ≤ 1000000)
    (hpos : 0 < ((centres s).map (neutronRate (referenceReactivity U m method) tr psi L s.sourceType)).sum)
    (hke : ScaleFactor ((2 : ℝ) ^ (-53 : ℤ)) 1000 ke) (hks : ScaleFactor ((2 : ℝ) ^ (-53 : ℤ)) (1 / 1000) ks)
    (hkv : ScaleFactor ((2 : ℝ) ^ (-53 : ℤ)) 1000 kv)
    (hspec : spec = .DATA → ∀ r ∈ s.sourceType, 0 < neutronYield r → r = .TT)
    (hres : Resolved binary64 ((2 : ℝ) ^ (-53 : ℤ)) pts oX oZ L M) (σ : ℤ) (hw : WindsOnce pts σ)
    {g : ℝ × ℝ → ℝ} (hg : Continuous g) {η G : ℝ} (hη : 0 ≤ η) (hG0 : 0 ≤ G)
    (hclose : ∀ p ∈ centres s, ∀ q : ℝ × ℝ, |q.1 - p.1| ≤ 5 / 8 * L → |q.2 - p.2| ≤ 5 / 8 * L → |g q - g p| ≤ η)
    (hG : ∀ p ∈ centres s, |g p| ≤ G) {C ω C' ω' : ℝ} (hC : 0 ≤ C) (hω : 0 ≤ ω) (hC' : 0 ≤ C') (hω' : 0 ≤ ω')
    (hν : Gentle pts (centres s) L (neutronsAt (referenceReactivity U m method) tr psi s.sourceType) C ω)
    (he : Gentle pts (centres s) L (fun p => neutronsAt (referenceReactivity U m method) tr psi s.sourceType p * g p) C' ω')
    (hI : 0 < insideIntegral pts (neutronsAt (referenceReactivity U m method) tr psi s.sourceType)) :
    let u := (2 : ℝ) ^ (-53 : ℤ)
    let I := insideIntegral pts (neutronsAt (referenceReactivity U m method) tr psi s.sourceType)
    ∃ rings, s.toOpenmcSourceR binary64 F (round53 Real.pi) ke ks kv spec = .ok rings ∧
      |openmcMean (fun _ q => g q) rings -
          insideIntegral pts (fun p => neutronsAt (referenceReactivity U m method) tr psi s.sourceType p * g p) / I| ≤
        (1 + 9 / 10 ^ 9) * η + 9 / 10 ^ 9 * G + (rateError u M L pts C' ω' + G * rateError u M L pts C ω) / I := by
  have e : (fun p => neutronsAt (referenceReactivity U m method) tr psi s.sourceType p * g p) =
      weightedNeutronsAt (referenceReactivity U m method) tr psi s.sourceType fun _ p => g p := by
    funext p
    unfold neutronsAt weightedNeutronsAt
    rw [List.sum_map_mul_right]
  rw [e] at he ⊢
  exact C114_binary64 hF hm hQ hP hs hok hcold haxis hN hpos hke hks hkv spec hspec hres σ hw (fun _ => hg) hη hG0
    (fun r _ _ p hp _ _ q h1 h2 => hclose p hp q h1 h2) (fun r _ _ p hp => hG p hp) hC hω hC' hω' hν he hI

/-- C114, energies: with Gaussian spectra and no T-T, the mean energy (eV) of the sampled neutrons. -/
theorem C114_energy (hF : AccurateLib F (4 * (2 : ℝ) ^ (-53 : ℤ)))
    (hm : RoughData U m) (hQ : ∀ r, 0 < Q r) (hP : 0 < P)
    (hs : Source.makeR binary64 F (reactivityXsR binary64 F (round53 Real.pi) U m) (round53 Real.pi) Q pts oX oZ psi tr
      arg L (some P) method = .ok s)
    (hok : PlasmaOK tr psi (centres s)) (hcold : ∀ p ∈ centres s, temperatureAt tr psi p ≤ 40)
    (haxis : ∀ p ∈ centres s, 5 / 8 * L ≤ p.1) (hN : cells s + s.sourceType.length ≤ 1000000)
    (hpos : 0 < ((centres s).map (neutronRate (referenceReactivity U m method) tr psi L s.sourceType)).sum)
    (hke : ScaleFactor ((2 : ℝ) ^ (-53 : ℤ)) 1000 ke) (hks : ScaleFactor ((2 : ℝ) ^ (-53 : ℤ)) (1 / 1000) ks)
    (hkv : ScaleFactor ((2 : ℝ) ^ (-53 : ℤ)) 1000 kv) (hTT : .TT ∉ s.sourceType)
    (hres : Resolved binary64 ((2 : ℝ) ^ (-53 : ℤ)) pts oX oZ L M) (σ : ℤ) (hw : WindsOnce pts σ)
    {G : ℝ} (hG0 : 0 ≤ G)
    (hG : ∀ q : Neutronic, .n q ∈ s.sourceType → ∀ p ∈ centres s, |1000 * specMean q (temperatureAt tr psi p)| ≤ G)
    {C ω C' ω' : ℝ} (hC : 0 ≤ C) (hω : 0 ≤ ω) (hC' : 0 ≤ C') (hω' : 0 ≤ ω')
    (hν : Gentle pts (centres s) L (neutronsAt (referenceReactivity U m method) tr psi s.sourceType) C ω)
    (he : Gentle pts (centres s) L (weightedNeutronsAt (referenceReactivity U m method) tr psi s.sourceType
      fun r p => ofPublished (fun mean _ _ => mean) r (temperatureAt tr psi p) p) C' ω')
    (hI : 0 < insideIntegral pts (neutronsAt (referenceReactivity U m method) tr psi s.sourceType)) :
    let u := (2 : ℝ) ^ (-53 : ℤ)
    let I := insideIntegral pts (neutronsAt (referenceReactivity U m method) tr psi s.sourceType)
    ∃ rings, s.toOpenmcSourceR binary64 F (round53 Real.pi) ke ks kv .BALLABIO_GAUSSIAN = .ok rings ∧
      |openmcMean (ofNormal fun mean _ _ => mean) rings -
          insideIntegral pts (weightedNeutronsAt (referenceReactivity U m method) tr psi s.sourceType
            fun r p => ofPublished (fun mean _ _ => mean) r (temperatureAt tr psi p) p) / I| ≤
        1 / 10 ^ 8 * G + (rateError u M L pts C' ω' + G * rateError u M L pts C ω) / I := by
  intro u I
  have hsize : ∀ r ∈ s.sourceType, 0 < neutronYield r → ∀ p ∈ centres s,
      |ofPublished (fun mean _ _ => mean) r (temperatureAt tr psi p) p| ≤ G := by
    intro r hr hy p hp
    cases r with
    | n q => exact hG q hr p hp
    | a q => cases q <;> simp [neutronYield] at hy
  obtain ⟨rings, h1, h2⟩ := C114_binary64 hF hm hQ hP hs hok hcold haxis hN hpos hke hks hkv .BALLABIO_GAUSSIAN (by simp)
    hres σ hw (phi := ofNormal fun mean _ _ => mean)
    (Φ := fun r p => ofPublished (fun mean _ _ => mean) r (temperatureAt tr psi p) p) (η := 1 / 10 ^ 13 * G)
    (by
      intro d
      cases d with
      | normal mean std => exact continuous_const
      | tabular l => exact continuous_const)
    (by positivity) hG0 (by
      rintro r hr hy p hp d ⟨t', -, ht, hl, -⟩ q _ _
      have htt : r ≠ .TT := fun h => hTT (h ▸ hr)
      rw [ht htt] at hl
      cases r with
      | a q => cases q <;> simp [neutronYield] at hy
      | n k =>
        have e : publishedLaw .BALLABIO_GAUSSIAN (.n k) (temperatureAt tr psi p) =
            .normal (1000 * specMean k (temperatureAt tr psi p)) (1000 * specSigma k (temperatureAt tr psi p)) := by
          cases k with
          | T_T => exact absurd rfl htt
          | D_T => simp only [publishedLaw, if_true]
          | D_D => simp only [publishedLaw, if_true]
        rw [e] at hl
        cases d with
        | tabular l => exact hl.elim
        | normal mean std =>
          obtain ⟨hl, -⟩ := hl
          refine hl.trans (mul_le_mul_of_nonneg_left ((le_abs_self _).trans (hG k hr p hp)) (by norm_num)))
    hsize hC hω hC' hω' hν he hI
  refine ⟨rings, h1, h2.trans ?_⟩
  have : (1 + 9 / 10 ^ 9) * (1 / 10 ^ 13 * G) + 9 / 10 ^ 9 * G ≤ 1 / 10 ^ 8 * G := by linarith
  exact add_le_add this le_rfl

/-! ### The hypotheses are met: 500 MW of D-T from the rectangular plasma with flat profiles -/

namespace Ex

/-- The same source as `default_source`, of D-T reactions. -/
theorem dt_source (psi : ℝ → ℝ → ℝ) {U : SI} {m : Masses ℝ} (hm : RoughData U m) : ∃ s,
    Source.makeR binary64 roundedLib (reactivityXsR binary64 roundedLib (round53 Real.pi) U m)
        (round53 Real.pi) (fun _ => 2.8e-12) rectangle 2 0 psi flat (.member .DT) (3 / 10) (some 5e8) .AUTO = .ok s ∧
      s.sourceType = [.DT] ∧ PlasmaOK flat psi (centres s) ∧ cells s + s.sourceType.length ≤ 1000000 ∧
      centres s = samplePointsR binary64 rectangle 2 0 (3 / 10) ∧ centres s ≠ [] := by
  have hst : parseSourceType (.member .DT) = .ok [.DT] := by
    refine congrArg Except.ok ?_
    rw [finish_eq_filter]
    decide
  have hpi : |round53 Real.pi - Real.pi| ≤ (2 : ℝ) ^ (-53 : ℤ) * Real.pi := by
    have := C74_binary64.rel Real.pi
    rwa [abs_of_pos Real.pi_pos] at this
  have h53 := u53
  have hp : (0 : ℝ) < (2 : ℝ) ^ (-53 : ℤ) := by positivity
  have hne : samplePointsR binary64 rectangle 2 0 (3 / 10) ≠ [] := by
    obtain ⟨p, hp, -⟩ := C79_o_point _ _ _ _ _ _ _ rect_resolved (rect_far _ ⟨0, 0, by simp, by simp⟩)
    exact List.ne_nil_of_mem hp
  have hacc := all_accurate C74_binary64 accurate_libs.2 (by linarith) (by linarith) hpi hm .AUTO
  have hpow : 0 < cellsPower (referenceReactivity U m .AUTO) (fun _ => 2.8e-12) flat psi (3 / 10)
      (samplePointsR binary64 rectangle 2 0 (3 / 10)) [.DT] := by
    unfold cellsPower channelRate
    simp only [List.map_cons, List.map_nil, List.sum_cons, List.sum_nil, add_zero]
    refine mul_pos (List.sum_pos _ ?_ (by simpa using hne)) (by norm_num)
    intro x hx
    obtain ⟨p, hp, rfl⟩ := List.mem_map.1 hx
    have h1 := rect_radius p hp
    have h2 := (hacc .DT).pos 10 (by norm_num) (by norm_num)
    have := Real.pi_pos
    have : 0 < p.1 := by linarith
    unfold cellRate rateDensity
    generalize referenceReactivity U m .AUTO .DT = ref at h2
    have e : valueAt flat.temperature (psi p.1 p.2) = 10 := by simp [valueAt, flat]
    rw [e]
    refine mul_pos (div_pos (mul_pos ?_ h2) ?_) (by positivity)
    · simp [reactants, density, valueAt, flat, Reaction.DT]; norm_num
    · split_ifs <;> norm_num
  obtain ⟨s, hs⟩ := C93_succeeds C74_binary64 hpi (Q := fun _ => 2.8e-12) (fun _ => by norm_num)
    (e := 165000 * (4 * (2 : ℝ) ^ (-53 : ℤ))) (by positivity) (by linarith) hst (fun r _ => hacc r)
    (flat_ok psi) (by
      intro p _ f hf
      simp only [flat, List.mem_cons, List.not_mem_nil, or_false] at hf
      rcases hf with rfl | rfl | rfl | rfl <;> exact ⟨_, rfl⟩) hne (some 5e8) hpow
  obtain ⟨c1, c2⟩ := C93_cells hs
  rw [hst] at c1
  obtain ⟨st', temp, d, t, h, sv, hm', H⟩ := makeR_ok_iff.1 hs
  obtain ⟨f1, f2, f3⟩ := unscaled_fields binary64 (round53 Real.pi) rectangle 2 0 (3 / 10) st' temp d t h sv (parse_nodup hm'.parse)
  obtain ⟨g1, g2, g3⟩ := normaliseR_fields H
  have c1 := (Except.ok.inj c1).symm
  refine ⟨s, hs, c1, ?_, ?_, c2, ?_⟩
  · rw [c2]; exact flat_ok psi
  · rw [c1, g3, f3]
    have := rect_count
    simp only [List.length_cons, List.length_nil]
    omega
  · rw [c2]; exact hne

/-- The mean major radius and the mean energy of the neutrons that OpenMC samples, with 30 cm cells. -/
example (psi : ℝ → ℝ → ℝ) : ∃ (s : Source ℝ) (rings : List (Ring ℝ NeutronDist)) (I J K ν : ℝ),
    s.toOpenmcSourceR binary64 roundedLib (round53 Real.pi) 1000 (binary64.rd (1 / 1000)) 1000 .BALLABIO_GAUSSIAN = .ok rings ∧
    0 < ν ∧ 0 < I ∧ K = ν * (1000 * specMean .D_T 10) ∧
    |openmcMean (fun _ q => q.1) rings - J / I| ≤ (1 + 9 / 10 ^ 9) * (3 / 16) + 9 / 10 ^ 9 * 3.3 +
      (rateError ((2 : ℝ) ^ (-53 : ℤ)) 3 (3 / 10) rectangle (ν * 3.3) (ν * (3 / 16)) +
        3.3 * rateError ((2 : ℝ) ^ (-53 : ℤ)) 3 (3 / 10) rectangle ν 0) / I ∧
    |openmcMean (ofNormal fun mean _ _ => mean) rings - insideIntegral rectangle (fun _ => K) / I| ≤
      1 / 10 ^ 8 * |1000 * specMean .D_T 10| +
      (rateError ((2 : ℝ) ^ (-53 : ℤ)) 3 (3 / 10) rectangle |K| 0 +
        |1000 * specMean .D_T 10| * rateError ((2 : ℝ) ^ (-53 : ℤ)) 3 (3 / 10) rectangle ν 0) / I := by
  obtain ⟨U, m, hm⟩ : ∃ (U : SI) (m : Masses ℝ), RoughData U m := ⟨_, _, rough_measured⟩
  obtain ⟨s, hs, hst, hok, hN, hc, hne⟩ := Ex.dt_source psi hm
  have h53 := u53
  have hp : (0 : ℝ) < (2 : ℝ) ^ (-53 : ℤ) := by positivity
  have hpi : |round53 Real.pi - Real.pi| ≤ (2 : ℝ) ^ (-53 : ℤ) * Real.pi := by
    have := C74_binary64.rel Real.pi
    rwa [abs_of_pos Real.pi_pos] at this
  have hacc := all_accurate C74_binary64 accurate_libs.2 (by linarith) (by linarith) hpi hm .AUTO
  have hx : ∀ p ∈ centres s, 1 / 2 ≤ p.1 := fun p hp => Ex.rect_radius p (hc ▸ hp)
  have ht : ∀ p : ℝ × ℝ, temperatureAt Ex.flat psi p = 10 := fun p => by simp [temperatureAt, valueAt, Ex.flat]
  have hpos := Ex.rate_sum_pos hm psi s.sourceType (by rw [hst]; simp) (centres s) hne (fun p hp => by linarith [hx p hp])
  have hν0 : 0 < rateAt (referenceReactivity U m .AUTO) flat psi .DT (0, 0) := by
    have h2 := (hacc .DT).pos 10 (by norm_num) (by norm_num)
    have hT : valueAt flat.temperature (psi 0 0) = 10 := by simp [valueAt, flat]
    unfold rateAt rateDensity
    rw [hT]
    generalize referenceReactivity U m .AUTO .DT = ref at h2
    refine div_pos (mul_pos ?_ h2) ?_
    · simp [reactants, density, valueAt, flat, Reaction.DT]; norm_num
    · split_ifs <;> norm_num
  have ey : (neutronYield .DT : ℝ) = 1 := by norm_num [neutronYield, Reaction.DT]
  set ν := rateAt (referenceReactivity U m .AUTO) flat psi .DT (0, 0) with hν
  have e1 : neutronsAt (referenceReactivity U m .AUTO) flat psi s.sourceType = fun _ => ν := by
    funext p
    rw [hst]
    simp only [neutronsAt, List.map_cons, List.map_nil, List.sum_cons, List.sum_nil, add_zero, ey, one_mul]
    exact flat_rate _ psi .DT p
  have e2 : weightedNeutronsAt (referenceReactivity U m .AUTO) flat psi s.sourceType
      (fun r p => ofPublished (fun mean _ _ => mean) r (temperatureAt flat psi p) p) = fun _ => ν * (1000 * specMean .D_T 10) := by
    funext p
    rw [hst]
    simp only [weightedNeutronsAt, List.map_cons, List.map_nil, List.sum_cons, List.sum_nil, add_zero, ey, one_mul, ht]
    rw [flat_rate _ psi .DT p, ← hν]
    rfl
  have hV : 0 < insideIntegral rectangle fun _ => ν := by
    have hpi := Real.pi_pos
    have e0 : insideIntegral rectangle (fun _ => ν) = ν * surfaceVolume rectangle := by
      rw [← (polygon_measures rectangle rect_resolved.closed rect_resolved.long 1 rect_winds).2]
      exact MeasureTheory.integral_const_mul _ _
    have c1 : contour (fun x _ => x) rectangle = 4 := by
      simp only [rectangle, contour, seg_x]; norm_num
    have c2 : contour (fun x _ => x ^ 2) rectangle = 16 := by
      simp only [rectangle, contour, seg_xx]; norm_num
    have e := (C45_centroid _ rect_resolved.closed (by rw [rect_area]; norm_num)).1
    rw [c1, c2] at e
    rw [e0]
    refine mul_pos hν0 ?_
    unfold surfaceVolume
    rw [rect_area, e]
    positivity
  have hcon : ∀ k : ℝ, Gentle rectangle (centres s) (3 / 10) (fun _ => k) |k| 0 := fun k =>
    ⟨fun _ _ => le_rfl, fun _ _ _ _ _ _ => by simp, continuousOn_const⟩
  have hconν := hcon ν
  rw [abs_of_pos hν0] at hconν
  have hb : ∀ p ∈ centres s, |p.1| ≤ 3.3 := by
    intro p hp
    rw [hc] at hp
    have := (centre_bounds rect_resolved hp).1
    linarith
  have pos := C114_positions (spec := .BALLABIO_GAUSSIAN) accurate_libs.2 hm (fun _ => by norm_num) (by norm_num) hs hok
    (fun p _ => by rw [ht]; norm_num) (fun p hp => by linarith [hx p hp]) hN hpos scale_factors.1 scale_factors.2 scale_factors.1
    (by simp) rect_resolved 1 rect_winds (g := Prod.fst) continuous_fst (η := 3 / 16) (G := 3.3) (by norm_num) (by norm_num)
    (by intro p _ q h1 _; norm_num at h1 ⊢; linarith) hb (C := ν) (ω := 0) (C' := ν * 3.3) (ω' := ν * (3 / 16)) hν0.le le_rfl
    (by positivity) (by positivity) (by rw [e1]; exact hconν) (by
      rw [e1]
      refine ⟨?_, ?_, ?_⟩
      · intro p hp
        rw [abs_mul, abs_of_pos hν0]
        refine mul_le_mul_of_nonneg_left ?_ hν0.le
        rcases hp with hp | hp
        · exact (inside_radius rect_resolved hp).trans (by norm_num)
        · exact hb p hp
      · intro p _ q _ h1 _
        rw [← mul_sub, abs_mul, abs_of_pos hν0]
        exact mul_le_mul_of_nonneg_left (by norm_num at h1 ⊢; linarith) hν0.le
      · exact (continuous_const.mul continuous_fst).continuousOn)
    (by rw [e1]; exact hV)
  have en := C114_energy accurate_libs.2 hm (fun _ => by norm_num) (by norm_num) hs hok
    (fun p _ => by rw [ht]; norm_num) (fun p hp => by linarith [hx p hp]) hN hpos scale_factors.1 scale_factors.2 scale_factors.1
    (by rw [hst]; decide) rect_resolved 1 rect_winds (G := |1000 * specMean .D_T 10|) (abs_nonneg _)
    (by
      intro q hq p _
      rw [hst] at hq
      have : Reaction.n q = .DT := by simpa using hq
      cases this
      rw [ht]) (C := ν) (ω := 0) (C' := |ν * (1000 * specMean .D_T 10)|) (ω' := 0) hν0.le le_rfl (abs_nonneg _) le_rfl
    (by rw [e1]; exact hconν) (by rw [e2]; exact hcon _) (by rw [e1]; exact hV)
  simp only [e1, e2] at pos en
  obtain ⟨rings, k1, k2⟩ := pos
  obtain ⟨rings', k3, k4⟩ := en
  rw [k1] at k3
  cases k3
  exact ⟨s, rings, _, _, _, ν, k1, hν0, hV, rfl, k2, k4⟩

end Ex

end
end TNS
