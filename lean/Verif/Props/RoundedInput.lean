import Verif.Model.RoundedInput
import Verif.Spec.RoundedInput
import Verif.Props.EnergyLaw
import Verif.Props.RoundedExport
import Verif.Props.RoundedSpectraC99
import Verif.Props.RoundedTTC107
/-
C110: from the plasma to the OpenMC input in floating point, energy distributions included.
-/

set_option autoImplicit false

namespace TNS
open Spec
noncomputable section

/-- The tables of the exact model are the published ones up to a factor. -/
theorem law_table (method : SpectrumMethod) (r : Neutronic) (t : ℝ) (ht : 0 < t) (h40 : t ≤ 40)
    (hm : method ≠ .DATA ∨ r = .T_T) {l : List (ℝ × ℝ)} (hd : neutronEnergySpectrum method (.n r) t = .ok (.tabular l)) :
    ∃ (l₀ : List (ℝ × ℝ)) (c : ℝ), 0 < c ∧ publishedLaw method (.n r) t = .tabular l₀ ∧
      l = (l₀.map fun p => (p.1, c * p.2)) ∧ l ≠ [] := by
  have ne : ∀ keV : List (ℝ × ℝ), IsSpectrum keV → keV.map (fun p => (1000 * p.1, p.2)) ≠ [] := by
    intro keV h e
    have := h.unit
    rw [List.map_eq_nil_iff.1 e] at this
    simp [area] at this
  obtain ⟨d', hd', h⟩ := C69_distribution r t ht h40 method (fun e => hm.resolve_left fun k => k e)
  rw [hd] at hd'
  have hd' := Except.ok.inj hd'
  subst hd'
  cases h with
  | modified c keV hg hr hc hk _ hspec =>
    refine ⟨publishedTable (specMean r t) (specSigma r t), c, hc, ?_, ?_, ne _ hspec⟩
    · cases r with
      | T_T => exact absurd rfl hr
      | D_T => simp only [publishedLaw, if_neg hg]
      | D_D => simp only [publishedLaw, if_neg hg]
    · rw [publishedTable_linspace, hk]
      simp only [List.map_map, Function.comp_def]
  | data keV w hr hk _ hspec =>
    subst hr
    obtain ⟨c, hc, e, -⟩ := C54_TT t
    rw [show Reaction.TT = Reaction.n .T_T from rfl, hk] at e
    simp only [Except.ok.injEq, Prod.mk.injEq, Option.some.injEq] at e
    refine ⟨publishedTT t, c * (1 / 10 ^ 92 / 1000), by positivity, rfl, ?_, ne _ hspec⟩
    have k := congrArg (List.map fun p : ℝ × ℝ => (p.1, c * p.2)) (publishedTT_rows t)
    simp only [List.map_map, Function.comp_def] at k
    rw [e.1, List.map_map]
    simp only [mul_assoc, Function.comp_def] at k ⊢
    exact k.symm

theorem lawClose_of_same {εe εp a b c : ℝ} (hc : 0 < c) {l' l l₀ : List (ℝ × ℝ)} (hl : l = l₀.map fun p => (p.1, c * p.2))
    (h : SameSpectrum a b l' l) (hp : ∀ p ∈ l', 0 < p.1 ∧ 0 < p.2) (ha : a ≤ εe) (hb : b ≤ εp) (a0 : 0 ≤ a) (b0 : 0 ≤ b) :
    LawClose εe εp (.tabular l') (.tabular l₀) := by
  subst hl
  refine ⟨c, hc, ?_⟩
  unfold SameSpectrum at h
  rw [List.forall₂_map_right_iff] at h
  induction h with
  | nil => exact .nil
  | cons h _ ih =>
    rename_i p' p l' l _
    obtain ⟨q1, q2⟩ := hp p' (by simp)
    refine .cons ⟨h.1.trans ?_, h.2.trans ?_⟩ (ih fun x hx => hp x (List.mem_cons_of_mem _ hx))
    · refine mul_le_mul_of_nonneg_right ha ?_
      by_contra hn
      push Not at hn
      have := (abs_le.1 h.1).2
      have k1 : p'.1 ≤ a * p.1 + p.1 := by simpa using by linarith
      nlinarith
    · refine mul_le_mul_of_nonneg_right hb ?_
      by_contra hn
      push Not at hn
      have k := (abs_le.1 h.2).2
      have k1 : p'.2 ≤ b * (c * p.2) + c * p.2 := by simpa using by linarith
      have : b * (c * p.2) ≤ 0 := mul_nonpos_of_nonneg_of_nonpos b0 hn.le
      linarith

/-- The distributions computed in floating point are those of the neutrons. -/
theorem law_rounded {F : MathLib} (hF : AccurateLib F (4 * (2 : ℝ) ^ (-53 : ℤ))) (pi : ℝ) {ke ks kv : ℝ}
    (hke : ScaleFactor ((2 : ℝ) ^ (-53 : ℤ)) 1000 ke) (hks : ScaleFactor ((2 : ℝ) ^ (-53 : ℤ)) (1 / 1000) ks)
    (hkv : ScaleFactor ((2 : ℝ) ^ (-53 : ℤ)) 1000 kv) (method : SpectrumMethod) (r : Reaction) (hr : 0 < neutronYield r)
    (hm : method ≠ .DATA ∨ r = .TT) (t : ℝ) (h1 : 0.2 ≤ t) (h2 : t ≤ 40) :
    ∃ d, neutronDistR binary64 F pi ke ks kv method r t = .ok d ∧ LawOf method r t d := by
  have hne : ∀ {a b : ℝ} {s s' : List (ℝ × ℝ)}, SameSpectrum a b s' s → s ≠ [] → s' ≠ [] := by
    rintro a b s s' h h0 rfl
    cases h
    exact h0 rfl
  by_cases htt : r = .TT
  · subst htt
    obtain ⟨t', s, s', k1, k2, k3, k4, k5, k6, -⟩ := C107_binary64 hke hks hkv t method
    obtain ⟨l₀, c, hc, e1, e2, e3⟩ := law_table method .T_T t' (by linarith [k1.lower]) (by linarith [k1.upper]) (.inr rfl) k2
    refine ⟨.tabular s', k3, t', fun _ => k1, fun h => absurd rfl h, ?_, hne k4 e3, k5, k6⟩
    rw [show Reaction.TT = Reaction.n .T_T from rfl, e1]
    exact lawClose_of_same hc e2 k4 k6 (by norm_num) (by norm_num) (by norm_num) (by norm_num)
  · have hm0 := hm.resolve_right htt
    obtain ⟨q, b, rfl, hq, hb⟩ : ∃ (q : Neutronic) (b : Ballabio), r = .n q ∧ q ≠ .T_T ∧ (Reaction.n q).ballabio = some b := by
      rcases r with (_ | _ | _) | (_ | _)
      · exact ⟨.D_T, _, rfl, by simp, rfl⟩
      · exact ⟨.D_D, _, rfl, by simp, rfl⟩
      · exact absurd rfl htt
      · simp [neutronYield] at hr
      · simp [neutronYield] at hr
    have hd : neutronDistR binary64 F pi ke ks kv method (.n q) t = ballabioDistR binary64 F pi (b.lit binary64) t method := by
      cases q with
      | T_T => exact absurd rfl hq
      | D_T => simp only [neutronDistR, hb]
      | D_D => simp only [neutronDistR, hb]
    rw [hd]
    have h53 := u53
    have hp : (0 : ℝ) < (2 : ℝ) ^ (-53 : ℤ) := by positivity
    have hu : (2 : ℝ) ^ (-53 : ℤ) ≤ 1.12 / 10 ^ 16 := by
      rw [zpow_neg, show (53 : ℤ) = ((53 : ℕ) : ℤ) by norm_num, zpow_natCast]
      norm_num
    have h1' : 1 / 10 ≤ t := by linarith
    by_cases hg : method = .BALLABIO_GAUSSIAN
    · subst hg
      obtain ⟨m', s', e1, -, e3, e4, e5⟩ := C99_normal C74_binary64 hF (by linarith) (by linarith) pi h1' h2 hb
      obtain ⟨n1, n2⟩ := narrow q hq t (by linarith) h2
      have hmean : 0 < specMean q t := by linarith
      refine ⟨_, e1, t, fun h => absurd h htt, fun _ => rfl, ?_, ?_, e3⟩
      · have : publishedLaw .BALLABIO_GAUSSIAN (.n q) t = .normal (1000 * specMean q t) (1000 * specSigma q t) := by
          cases q with
          | T_T => exact absurd rfl hq
          | D_T => simp only [publishedLaw, if_true]
          | D_D => simp only [publishedLaw, if_true]
        rw [this]
        exact ⟨e4.trans (mul_le_mul_of_nonneg_right (by linarith) (by linarith)),
          e5.trans (mul_le_mul_of_nonneg_right (by linarith) (by linarith))⟩
      · have k := (abs_le.1 e4).1
        have : 6 * (4 * (2 : ℝ) ^ (-53 : ℤ)) * (1000 * specMean q t) ≤ 1 / 2 * (1000 * specMean q t) :=
          mul_le_mul_of_nonneg_right (by linarith) (by linarith)
        generalize 6 * (4 * (2 : ℝ) ^ (-53 : ℤ)) * (1000 * specMean q t) = e at *
        linarith
    · have hm' : method = .AUTO ∨ method = .BALLABIO_M_GAUSSIAN := by
        cases method <;> simp_all
      obtain ⟨s, s', k2, k3, k4, k5, k6⟩ := C99_tabular C74_binary64 hF (by linarith) (by linarith) pi h1' h2 hb hm'
      obtain ⟨l₀, c, hc, e1, e2, e3⟩ := law_table method q t (by linarith) h2 (.inl hm0) k2
      refine ⟨.tabular s', k3, t, fun h => absurd h htt, fun _ => rfl, ?_, hne k4 e3, k5, k6⟩
      rw [e1]
      refine lawClose_of_same hc e2 k4 k6 (by linarith) ?_ (by positivity) (by positivity)
      rw [div_le_iff₀ (by linarith)]
      have : 2.5e7 * (4 * (2 : ℝ) ^ (-53 : ℤ)) ≤ 1.2 / 10 ^ 8 := by norm_num
      have : 6 / 10 ^ 8 * 0.2 ≤ 6 / 10 ^ 8 * t := mul_le_mul_of_nonneg_left h1 (by norm_num)
      linarith

/-- C110.  From the plasma to the complete OpenMC input in binary64: for every source type, reactivity method and spectrum
method, with library functions accurate to four units of rounding, at most a million cells and channels, ion temperatures of
the cells between 0.2 and 40 keV: `to_openmc_source` succeeds, and its sources stand, one by one and in order, for the
cells in which neutrons are produced. -/
theorem C110_binary64 {F : MathLib} (hF : AccurateLib F (4 * (2 : ℝ) ^ (-53 : ℤ)))
    {U : SI} {m : Masses ℝ} (hm : RoughData U m) {Q : Reaction → ℝ} (hQ : ∀ r, 0 < Q r)
    {pts : List (ℝ × ℝ)} {oX oZ : ℝ} {psi : ℝ → ℝ → ℝ} {tr : TransportView ℝ}
    {arg : SourceArg} {L : ℝ} (hL : 0 ≤ L) {method : ReactivityMethod} {s : Source ℝ} {P : ℝ} (hP : 0 < P)
    (hs : Source.makeR binary64 F (reactivityXsR binary64 F (round53 Real.pi) U m) (round53 Real.pi) Q pts oX oZ psi tr
      arg L (some P) method = .ok s)
    (hok : PlasmaOK tr psi (centres s)) (hcold : ∀ p ∈ centres s, temperatureAt tr psi p ≤ 40)
    (hN : cells s + s.sourceType.length ≤ 1000000)
    (hpos : 0 < ((centres s).map (neutronRate (referenceReactivity U m method) tr psi L s.sourceType)).sum)
    {ke ks kv : ℝ} (hke : ScaleFactor ((2 : ℝ) ^ (-53 : ℤ)) 1000 ke) (hks : ScaleFactor ((2 : ℝ) ^ (-53 : ℤ)) (1 / 1000) ks)
    (hkv : ScaleFactor ((2 : ℝ) ^ (-53 : ℤ)) 1000 kv) (spec : SpectrumMethod)
    (hspec : spec = .DATA → ∀ r ∈ s.sourceType, 0 < neutronYield r → r = .TT) :
    ∃ rings, s.toOpenmcSourceR binary64 F (round53 Real.pi) ke ks kv spec = .ok rings ∧
      List.Forall₂ (RingOf spec (referenceReactivity U m method) tr psi L s.sourceType (centres s) (4 / 10 ^ 9))
        ((centres s).filter fun p => decide (0 < neutronRate (referenceReactivity U m method) tr psi L s.sourceType p))
        rings := by
  have h53 := u53
  have hp : (0 : ℝ) < (2 : ℝ) ^ (-53 : ℤ) := by positivity
  have hpi : |round53 Real.pi - Real.pi| ≤ (2 : ℝ) ^ (-53 : ℤ) * Real.pi := by
    have := C74_binary64.rel Real.pi
    rwa [abs_of_pos Real.pi_pos] at this
  have hN' : (cells s : ℝ) + s.sourceType.length ≤ 1000000 := by exact_mod_cast hN
  have hε : 2.3 * (165000 * (4 * (2 : ℝ) ^ (-53 : ℤ))) +
      3 * ((cells s : ℝ) + s.sourceType.length + 14) * (2 : ℝ) ^ (-53 : ℤ) ≤ 1 / 10 ^ 9 := by
    have : 3 * ((cells s : ℝ) + s.sourceType.length + 14) * (2 : ℝ) ^ (-53 : ℤ) ≤
        3 * 1000014 * (2 : ℝ) ^ (-53 : ℤ) := mul_le_mul_of_nonneg_right (by linarith) hp.le
    linarith
  have hacc : ∀ r ∈ s.sourceType, _ := fun r (_ : r ∈ s.sourceType) =>
    all_accurate C74_binary64 hF (by linarith) (by linarith) hpi hm method r
  have hlaw : ∀ r ∈ s.sourceType, 0 < neutronYield r → ∀ p ∈ centres s, ∃ d,
      neutronDistR binary64 F (round53 Real.pi) ke ks kv spec r (temperatureAt tr psi p) = .ok d ∧
        LawOf spec r (temperatureAt tr psi p) d := by
    intro r hr hy p hp
    refine law_rounded hF _ hke hks hkv spec r hy ?_ _ (hok p hp).2.2.1 (hcold p hp)
    by_cases hd : spec = .DATA
    · exact .inr (hspec hd r hr hy)
    · exact .inl hd
  classical
  let sp : Reaction → ℝ → NeutronDist := fun r t =>
    match neutronDistR binary64 F (round53 Real.pi) ke ks kv spec r t with
    | .ok d => d
    | .error _ => .tabular []
  obtain ⟨rings, h⟩ := C95_succeeds C74_binary64 hpi hQ (by positivity) hacc hok hP hs (hε.trans (by norm_num)) hpos
    (neutronDistR binary64 F (round53 Real.pi) ke ks kv spec) sp (by
      intro r hr hy p hp
      obtain ⟨d, hd, -⟩ := hlaw r hr hy p hp
      simp only [sp, hd])
  refine ⟨rings, h, ?_⟩
  have key := C95_binary64 hF hm hQ hL hP hs hok hN hpos _ rings h
  rw [List.forall₂_iff_get] at key ⊢
  refine ⟨key.1, fun i i1 i2 => ?_⟩
  have hmem : ((centres s).filter fun p => decide (0 < neutronRate (referenceReactivity U m method) tr psi L s.sourceType p)).get
      ⟨i, i1⟩ ∈ centres s := List.mem_of_mem_filter (List.get_mem _ _)
  obtain ⟨o1, o2, o3, o4, o5⟩ := key.2 i i1 i2
  refine ⟨o1, ?_, o3, o4, o5⟩
  generalize ((centres s).filter fun p => decide (0 < neutronRate (referenceReactivity U m method) tr psi L s.sourceType p)).get
      ⟨i, i1⟩ = p at *
  rw [List.forall₂_iff_get] at o2 ⊢
  refine ⟨o2.1, fun j j1 j2 => ?_⟩
  obtain ⟨w1, w2⟩ := o2.2 j j1 j2
  refine ⟨w1, ?_⟩
  have hr := List.get_mem (s.sourceType.filter fun r => decide (0 < channelNeutrons (referenceReactivity U m method) tr psi L r p))
    ⟨j, j1⟩
  generalize (s.sourceType.filter fun r => decide (0 < channelNeutrons (referenceReactivity U m method) tr psi L r p)).get
    ⟨j, j1⟩ = r at *
  obtain ⟨hr1, hr2⟩ := List.mem_filter.1 hr
  have hy : 0 < neutronYield r := by
    rcases Nat.eq_zero_or_pos (neutronYield r) with h0 | h0
    · simp [channelNeutrons, h0] at hr2
    · exact h0
  obtain ⟨d, hd, hl⟩ := hlaw r hr1 hy p hmem
  rw [hd] at w2
  rwa [← Except.ok.inj w2]

/-- C110.  Without rounding the energy distributions are those of the exact model, for every reaction, temperature and
method, errors included. -/
theorem C110_exact (method : SpectrumMethod) (r : Reaction) (t : ℝ) :
    neutronDistR exactArith exactLib Real.pi 1000 (1 / 1000) 1000 method r t = neutronEnergySpectrum method r t := by
  have rdid : ∀ x, exactArith.rd x = x := fun _ => rfl
  have lit : ∀ b : Ballabio, b.lit exactArith = b := fun _ => rfl
  have table : ∀ b : Ballabio, (do
      let l ← ballabioSpectrumR exactArith exactLib Real.pi (b.lit exactArith) t .BALLABIO_M_GAUSSIAN
      .ok (NeutronDist.tabular (l.map fun p => (exactArith.rd (p.1 * 1000), p.2))) : Except Err NeutronDist) = (do
      let l ← ballabioSpectrum b t .BALLABIO_M_GAUSSIAN
      .ok (.tabular (l.map fun p => (p.1 * 1000, p.2)))) := by
    intro b
    rw [C99_exact]
    simp only [rdid]
  have fit : ∀ (q : Neutronic) (b : Ballabio), q ≠ .T_T → (Reaction.n q).ballabio = some b →
      neutronDistR exactArith exactLib Real.pi 1000 (1 / 1000) 1000 method (.n q) t =
        neutronEnergySpectrum method (.n q) t := by
    intro q b hq hb
    have e1 : neutronDistR exactArith exactLib Real.pi 1000 (1 / 1000) 1000 method (.n q) t =
        ballabioDistR exactArith exactLib Real.pi (b.lit exactArith) t method := by
      cases q with
      | T_T => exact absurd rfl hq
      | D_T => simp only [neutronDistR, hb]
      | D_D => simp only [neutronDistR, hb]
    rw [e1]
    cases method with
    | BALLABIO_GAUSSIAN =>
      have d1 : ∀ c : BallabioCoefficients, c.denR exactArith exactLib t = 1 + c.a2 * t ^ c.a3 := fun _ => rfl
      have m1 : b.meanEnergyR exactArith exactLib t = b.meanEnergy t := rfl
      have s1 : b.stdDeviationR exactArith exactLib t = b.stdDeviation t := rfl
      simp only [ballabioDistR, neutronEnergySpectrum, hb, lit, d1, m1, s1, rdid]
    | DATA =>
      cases q with
      | T_T => exact absurd rfl hq
      | D_T => simp [ballabioDistR, neutronEnergySpectrum, energySpectrum, dataSpectrum, Bind.bind, Except.bind]
      | D_D => simp [ballabioDistR, neutronEnergySpectrum, energySpectrum, dataSpectrum, Bind.bind, Except.bind]
    | BALLABIO_M_GAUSSIAN =>
      simp only [ballabioDistR, neutronEnergySpectrum, energySpectrum, hb]
      rw [table]
      cases ballabioSpectrum b t .BALLABIO_M_GAUSSIAN <;> rfl
    | AUTO =>
      have e : energySpectrum t (.n q) .AUTO = (do
          let s ← ballabioSpectrum b t .BALLABIO_M_GAUSSIAN
          .ok (some s, [])) := by
        cases q with
        | T_T => exact absurd rfl hq
        | D_T => simp only [energySpectrum, hb]
        | D_D => simp only [energySpectrum, hb]
      simp only [ballabioDistR, neutronEnergySpectrum, e]
      rw [table]
      cases ballabioSpectrum b t .BALLABIO_M_GAUSSIAN <;> rfl
  rcases r with (_ | _ | _) | (_ | _)
  · exact fit .D_T _ (by simp) rfl
  · exact fit .D_D _ (by simp) rfl
  · obtain ⟨s, w, e1, e2⟩ := C107_exact t method
    have : neutronEnergySpectrum method (.n .T_T) t = (do
        let s ← energySpectrum t .TT method
        match s.1 with
        | none => .error .tnsError
        | some l => .ok (.tabular (l.map (fun p => (p.1 * 1000, p.2))))) := by
      cases method <;> rfl
    rw [this, e2]
    simp only [neutronDistR, ttDistR, e1, Bind.bind, Except.bind, rdid]
  · cases method <;> simp [neutronDistR, neutronEnergySpectrum, energySpectrum, dataSpectrum, Reaction.ballabio, Bind.bind, Except.bind]
  · cases method <;> simp [neutronDistR, neutronEnergySpectrum, energySpectrum, dataSpectrum, Reaction.ballabio, Bind.bind, Except.bind]

/-- C110.  Without rounding the whole export is that of the exact model. -/
theorem C110_exact_export (s : Source ℝ) (h : s.sourceRate ≠ 0) (method : SpectrumMethod) :
    s.toOpenmcSourceR exactArith exactLib Real.pi 1000 (1 / 1000) 1000 method = s.toOpenmcSource method := by
  have e : neutronDistR exactArith exactLib Real.pi 1000 (1 / 1000) 1000 method = neutronEnergySpectrum method := by
    funext r t
    exact C110_exact method r t
  unfold Source.toOpenmcSourceR Source.toOpenmcSource
  rw [e]
  exact C87_exact _ s h

/-- The three conversion factors, each rounded once. -/
theorem scale_factors : ScaleFactor ((2 : ℝ) ^ (-53 : ℤ)) 1000 1000 ∧
    ScaleFactor ((2 : ℝ) ^ (-53 : ℤ)) (1 / 1000) (binary64.rd (1 / 1000)) := by
  have h0 : (0 : ℝ) ≤ (2 : ℝ) ^ (-53 : ℤ) := by positivity
  constructor
  · unfold ScaleFactor
    rw [sub_self, abs_zero]
    positivity
  · unfold ScaleFactor
    have := C74_binary64.rel (1 / 1000)
    rw [abs_of_pos (by norm_num : (0 : ℝ) < 1 / 1000)] at this
    linarith

/-- The hypotheses of C110 are met, and the conclusion is about something: a 500 MW source with the default reactions exports
with the default spectra and with Gaussian ones, and its first ring has a law for every reaction with neutrons. -/
example (psi : ℝ → ℝ → ℝ) (spec : SpectrumMethod) (hspec : spec ≠ .DATA) : ∃ (s : Source ℝ) (rings : List (Ring ℝ NeutronDist)),
    s.toOpenmcSourceR binary64 roundedLib (round53 Real.pi) 1000 (binary64.rd (1 / 1000)) 1000 spec = .ok rings ∧
      rings ≠ [] ∧ ∀ ring ∈ rings, ∃ q ∈ ring.energy, 0 < q.1 ∧ LawOf spec .DT 10 q.2 := by
  obtain ⟨s, hs, -, hdt, hok, hN, hne⟩ := Ex.default_source psi
  generalize hU : (⟨1.602176634e-16, 1.66053906660e-27⟩ : SI) = U at hs
  generalize hM : (⟨2.01410177812, 3.0160492779, 4.002602, 3.0160293201, 1.00866491588,
        1.007276466621, 5.48579909065e-4⟩ : Masses ℝ) = m at hs
  have hm : RoughData U m := by rw [← hU, ← hM]; exact rough_measured
  have hc := (C93_cells hs).2
  have hx : ∀ p ∈ centres s, 0 < p.1 := by
    intro p hp
    rw [hc] at hp
    linarith [Ex.rect_radius p hp]
  have hQ : ∀ r : Reaction, (0 : ℝ) < (fun _ => 2.8e-12) r := fun _ => by norm_num
  have ht : ∀ p : ℝ × ℝ, temperatureAt Ex.flat psi p = 10 := fun p => by simp [temperatureAt, valueAt, Ex.flat]
  obtain ⟨rings, h1, h2⟩ := C110_binary64 accurate_libs.2 hm hQ (by norm_num) (by norm_num) hs hok
    (fun p _ => by rw [ht]; norm_num) hN (Ex.rate_sum_pos hm psi s.sourceType hdt (centres s) hne hx)
    scale_factors.1 scale_factors.2 scale_factors.1 spec (fun h => absurd h hspec)
  have hall : (centres s).filter (fun p => decide (0 < neutronRate (referenceReactivity U m .AUTO) Ex.flat psi (3 / 10)
      s.sourceType p)) = centres s := by
    rw [List.filter_eq_self]
    intro p hp
    have := Ex.rate_sum_pos hm psi s.sourceType hdt [p] (by simp) (by
      intro q hq
      rw [List.mem_singleton.1 hq]
      exact hx p hp)
    simpa using this
  rw [hall] at h2
  refine ⟨s, rings, h1, ?_, ?_⟩
  · rintro rfl
    exact hne (List.length_eq_zero_iff.1 h2.length_eq)
  · intro ring hring
    obtain ⟨i, hi, rfl⟩ := List.mem_iff_get.1 hring
    rw [List.forall₂_iff_get] at h2
    have hi' : i.1 < (centres s).length := by rw [h2.1]; exact i.2
    have hp := List.get_mem (centres s) ⟨i.1, hi'⟩
    have R := h2.2 i.1 hi' i.2
    generalize (centres s).get ⟨i.1, hi'⟩ = p at *
    generalize rings.get i = ring at *
    have pos : ∀ st : List Reaction, .DT ∈ st → 0 < neutronRate (referenceReactivity U m .AUTO) Ex.flat psi (3 / 10) st p := by
      intro st hst
      have := Ex.rate_sum_pos hm psi st hst [p] (by simp) (by
        intro q hq
        rw [List.mem_singleton.1 hq]
        exact hx p hp)
      simpa using this
    have p1 := pos s.sourceType hdt
    have p2 : 0 < channelNeutrons (referenceReactivity U m .AUTO) Ex.flat psi (3 / 10) .DT p := by
      simpa [neutronRate] using pos [.DT] (by simp)
    have hmem : Reaction.DT ∈ s.sourceType.filter fun r =>
        decide (0 < channelNeutrons (referenceReactivity U m .AUTO) Ex.flat psi (3 / 10) r p) :=
      List.mem_filter.2 ⟨hdt, by simpa using p2⟩
    obtain ⟨⟨j, hj⟩, e⟩ := List.mem_iff_get.1 hmem
    have en := R.energy
    rw [List.forall₂_iff_get] at en
    have hj' : j < ring.energy.length := by rw [← en.1]; exact hj
    obtain ⟨k1, k2⟩ := en.2 j hj hj'
    rw [e] at k1 k2
    rw [ht] at k2
    refine ⟨_, List.get_mem ring.energy ⟨j, hj'⟩, ?_, k2⟩
    have q0 := div_pos p2 p1
    have := (abs_le.1 k1).1
    linarith

end
end TNS
