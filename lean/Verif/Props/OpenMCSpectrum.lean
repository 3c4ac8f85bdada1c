import Verif.Spec.NeutronDist
import Verif.Props.Spectra
import Verif.Props.TTRange
import Verif.Props.OpenMC
import Verif.Props.SdefSource
/-
C69: the energy distributions of the OpenMC export.
-/

set_option autoImplicit false

namespace TNS
open Spec
noncomputable section

/-- **C69**, T-T: at every temperature and with every method the distribution is the table of the data
spectrum, in eV. -/
theorem C69_TT (t : ℝ) (method : SpectrumMethod) :
    ∃ d, neutronEnergySpectrum method (.n .T_T) t = .ok d ∧ IsNeutronDist method .T_T t d := by
  obtain ⟨s, w, e1, e2⟩ := C56_TT t method
  obtain ⟨c, hc, e3, ha⟩ := C54_TT t
  have hs : s = (ttCall t).1.map (fun p => (p.1, c * p.2)) := by
    rw [e3] at e1
    simp only [Except.ok.injEq, Prod.mk.injEq, Option.some.injEq] at e1
    exact e1.1.symm
  refine ⟨.tabular (s.map (fun p => (1000 * p.1, p.2))), ?_, .data s w rfl e1 ?_ ⟨?_, ?_, ?_⟩⟩
  · have hcase : neutronEnergySpectrum method (.n .T_T) t = (do
        let s ← energySpectrum t (.n .T_T) method
        match s.1 with
        | none => .error .tnsError
        | some l => .ok (.tabular (l.map (fun p => (p.1 * 1000, p.2))))) := by
      cases method <;> rfl
    rw [hcase, show (Reaction.n .T_T) = Reaction.TT from rfl, e2]
    simp only [Bind.bind, Except.bind, mul_comm]
  · intro p hp
    rw [hs] at hp
    obtain ⟨q, hq, rfl⟩ := List.mem_map.1 hp
    exact lt_of_lt_of_le (by norm_num) (tt_energy_range t q hq).1
  · rw [hs, List.pairwise_map]; exact (C58_energy_grid t).2.1
  · intro p hp
    rw [hs] at hp
    obtain ⟨q, hq, rfl⟩ := List.mem_map.1 hp
    exact (mul_pos hc (C58_positive t q hq)).le
  · rw [hs]; exact ha

/-- The denominators of the two fits do not vanish in the fit range. -/
theorem ballabio_guard (r : Neutronic) (b : Ballabio) (hb : (Reaction.n r).ballabio = some b) (t : ℝ)
    (ht : 0 < t) (h40 : t ≤ 40) :
    ¬ (t < 0 ∨ 1 + b.shift.a2 * t ^ b.shift.a3 = 0 ∨ 1 + b.width.a2 * t ^ b.width.a3 = 0) := by
  have hr : r ≠ .T_T := by rintro rfl; simp [Reaction.ballabio] at hb
  obtain ⟨-, ⟨c, -, e, -⟩, -⟩ := C57_spectra r hr t ht h40
  intro hbad
  simp only [energySpectrum, hb, ballabioSpectrum] at e
  rw [if_pos hbad] at e
  cases e

/-- The published moments are those of the code. -/
theorem ballabio_moments (r : Neutronic) (b : Ballabio) (hb : (Reaction.n r).ballabio = some b) (t : ℝ)
    (ht : 0 < t) (h40 : t ≤ 40) :
    b.meanEnergy t = specMean r t ∧ b.stdDeviation t = specSigma r t ∧ 0 < specSigma r t := by
  obtain ⟨⟨a1, a2, -, a4, -⟩, b1, b2, -, b4, -⟩ := C57_moments t ht h40
  cases r with
  | D_T =>
    obtain rfl : ballabioDT = b := by simpa [Reaction.ballabio] using hb
    exact ⟨a1, a2, a4⟩
  | D_D =>
    obtain rfl : ballabioDD = b := by simpa [Reaction.ballabio] using hb
    exact ⟨b1, b2, b4⟩
  | T_T => simp [Reaction.ballabio] at hb

/-- **C69**: for `0 < T ≤ 40` keV every neutronic reaction has its distribution with every method, except
that there is no data spectrum for D-T and D-D. -/
theorem C69_distribution (r : Neutronic) (t : ℝ) (ht : 0 < t) (h40 : t ≤ 40) (method : SpectrumMethod)
    (hm : method = .DATA → r = .T_T) :
    ∃ d, neutronEnergySpectrum method (.n r) t = .ok d ∧ IsNeutronDist method r t d := by
  by_cases hr : r = .T_T
  · subst hr; exact C69_TT t method
  obtain ⟨b, hb⟩ : ∃ b, (Reaction.n r).ballabio = some b := by
    cases r with
    | D_T => exact ⟨_, rfl⟩
    | D_D => exact ⟨_, rfl⟩
    | T_T => exact absurd rfl hr
  obtain ⟨m1, m2, m3⟩ := ballabio_moments r b hb t ht h40
  obtain ⟨g1, -, c, hc, e, ha⟩ := C57_spectra r hr t ht h40
  by_cases hg : method = .BALLABIO_GAUSSIAN
  · subst hg
    refine ⟨_, ?_, .normal rfl hr m3⟩
    simp only [neutronEnergySpectrum, hb]
    rw [if_neg (ballabio_guard r b hb t ht h40), m1, m2, if_neg (by nlinarith), mul_comm,
      mul_comm (specSigma r t)]
  · have hd : method ≠ .DATA := fun h => hr (hm h)
    have hes : energySpectrum t (.n r) method = energySpectrum t (.n r) .BALLABIO_M_GAUSSIAN := by
      cases method with
      | DATA => exact absurd rfl hd
      | BALLABIO_GAUSSIAN => exact absurd rfl hg
      | BALLABIO_M_GAUSSIAN => rfl
      | AUTO => exact (C56_ballabio r hr t).1
    have hcase : neutronEnergySpectrum method (.n r) t = (do
        let s ← energySpectrum t (.n r) method
        match s.1 with
        | none => .error .tnsError
        | some l => .ok (.tabular (l.map (fun p => (p.1 * 1000, p.2))))) := by
      cases method <;> first | rfl | exact absurd rfl hg
    have hsort := grid_sorted (specMean r t) _ m3
      (fun e => c * modifiedGaussian (specMean r t) (specSigma r t) e)
    have hpos : ∀ p ∈ (linspace (specMean r t - 6 * specSigma r t)
        (specMean r t + 6 * specSigma r t) 1000).map
        (fun e => (e, c * modifiedGaussian (specMean r t) (specSigma r t) e)), 0 < p.1 ∧ 0 ≤ p.2 := by
      intro p hp
      obtain ⟨x, hx, rfl⟩ := List.mem_map.1 hp
      exact ⟨g1 x hx, (mul_pos hc (Real.exp_pos _)).le⟩
    generalize hk : (linspace (specMean r t - 6 * specSigma r t)
        (specMean r t + 6 * specSigma r t) 1000).map
        (fun e => (e, c * modifiedGaussian (specMean r t) (specSigma r t) e)) = keV at *
    refine ⟨.tabular (keV.map (fun p => (1000 * p.1, p.2))), ?_, .modified c keV hg hr hc hk.symm
      (fun p hp => (hpos p hp).1) ⟨hsort, fun p hp => (hpos p hp).2, ha⟩⟩
    rw [hcase, hes, e]
    simp only [Bind.bind, Except.bind, mul_comm]

/-- **C69**: asking for a data spectrum of D-T or D-D raises `NotImplementedError`. -/
theorem C69_no_data (r : Neutronic) (hr : r ≠ .T_T) (t : ℝ) :
    neutronEnergySpectrum .DATA (.n r) t = .error .notImplementedError := by
  cases r with
  | D_T => rfl
  | D_D => rfl
  | T_T => exact absurd rfl hr

/-- **C69**: at zero temperature there is no Gaussian for D-T and D-D: its width is zero, which OpenMC
rejects with `ValueError`. -/
theorem C69_cold (r : Neutronic) (hr : r ≠ .T_T) :
    neutronEnergySpectrum .BALLABIO_GAUSSIAN (.n r) 0 = .error .valueError := by
  have key : ∀ b : Ballabio, b.shift.a3 ≠ 0 → b.width.a3 ≠ 0 → (Reaction.n r).ballabio = some b →
      neutronEnergySpectrum .BALLABIO_GAUSSIAN (.n r) 0 = .error .valueError := by
    intro b h1 h2 hb
    simp only [neutronEnergySpectrum, hb]
    rw [if_neg (by simp [Real.zero_rpow h1, Real.zero_rpow h2])]
    simp [Ballabio.stdDeviation]
  cases r with
  | D_T => exact key ballabioDT (by norm_num [ballabioDT]) (by norm_num [ballabioDT]) rfl
  | D_D => exact key ballabioDD (by norm_num [ballabioDD]) (by norm_num [ballabioDD]) rfl
  | T_T => exact absurd rfl hr

theorem area_energy_scale (c : ℝ) (l : List (ℝ × ℝ)) :
    area (l.map (fun p => (c * p.1, p.2))) = c * area l := by
  induction l with
  | nil => simp [area]
  | cons p l ih =>
    cases l with
    | nil => simp [area]
    | cons q l =>
      simp only [area, List.map_cons, List.tail_cons, List.zipWith_cons_cons, List.sum_cons] at ih ⊢
      rw [ih]; ring

/-- **C69**: a table passed to OpenMC has area 1000, not 1 (the densities stay per keV, the energies are in
eV); its cumulative distribution relative to that total is exactly the one of the spectrum in keV, so the
distribution OpenMC samples after its own normalisation is the intended one. -/
theorem C69_cumulative {method : SpectrumMethod} {r : Neutronic} {t : ℝ} {l : List (ℝ × ℝ)}
    (h : IsNeutronDist method r t (.tabular l)) :
    ∃ keV : List (ℝ × ℝ), IsSpectrum keV ∧ l.map Prod.fst = keV.map (fun p => 1000 * p.1) ∧
      area l = 1000 ∧ ∀ n, area (l.take n) / area l = area (keV.take n) := by
  have key : ∀ keV : List (ℝ × ℝ), IsSpectrum keV → l = keV.map (fun p => (1000 * p.1, p.2)) →
      ∃ keV : List (ℝ × ℝ), IsSpectrum keV ∧ l.map Prod.fst = keV.map (fun p => 1000 * p.1) ∧
      area l = 1000 ∧ ∀ n, area (l.take n) / area l = area (keV.take n) := by
    rintro keV hk rfl
    have ha : area (keV.map (fun p => (1000 * p.1, p.2))) = 1000 := by
      rw [area_energy_scale, hk.unit, mul_one]
    refine ⟨keV, hk, by rw [List.map_map]; rfl, ha, fun n => ?_⟩
    rw [ha, ← List.map_take, area_energy_scale]
    field_simp
  cases h with
  | modified c keV hm hr hc hk hpos hspec => exact key keV hspec rfl
  | data keV w hr hk hpos hspec => exact key keV hspec rfl

/-! ## The export -/

/-- **C69**, export: for a physical source with at least one channel whose emitting cells are at
`0 < T ≤ 40` keV (with `DATA`: in which only T-T emits neutrons), `to_openmc_source` succeeds and gives one
source per emitting cell, with the mixture of the intended distributions at the cell's temperature. -/
theorem C69_export {pi : ℝ} {Q : Reaction → ℝ} {sv : Reaction → List ℝ → Except Err (List ℝ)}
    {s : Source ℝ} (h : PhysReachable pi Q sv s) (hch : s.sourceType ≠ []) (method : SpectrumMethod)
    (hT : ∀ i < s.x.length, 0 < emission s i →
      0 < (s.temperature[i]?).getD 0 ∧ (s.temperature[i]?).getD 0 ≤ 40)
    (hD : method = .DATA → ∀ i < s.x.length, ∀ r ∈ s.sourceType,
      0 < (neutronYield r : ℝ) * cellStrength s r i → r = .n .T_T) :
    ∃ dist : Reaction → ℝ → NeutronDist,
      (∀ i < s.x.length, ∀ r : Neutronic, .n r ∈ s.sourceType → 0 < cellStrength s (.n r) i →
        IsNeutronDist method r ((s.temperature[i]?).getD 0)
          (dist (.n r) ((s.temperature[i]?).getD 0))) ∧
      s.toOpenmcSource method = .ok
        (((List.range s.x.length).filter (fun i => decide (0 < emission s i))).map (fun i =>
          ringAt s dist i ((s.x[i]?).getD 0) ((s.z[i]?).getD 0) ((s.temperature[i]?).getD 0))) := by
  classical
  have hem : ∀ i < s.x.length, ∀ r ∈ s.sourceType,
      0 < (neutronYield r : ℝ) * cellStrength s r i → 0 < emission s i := by
    intro i _ r hr hpos
    refine lt_of_lt_of_le hpos (List.single_le_sum ?_ _ (List.mem_map_of_mem hr))
    intro a ha
    obtain ⟨r', _, rfl⟩ := List.mem_map.1 ha
    exact mul_nonneg (Nat.cast_nonneg _) (h.phys.2.cellStrength_nonneg r' i)
  have hyield : ∀ r : Neutronic, (0 : ℝ) < neutronYield (.n r) := by
    intro r; cases r <;> simp [neutronYield]
  have hex : ∀ i < s.x.length, ∀ r : Neutronic, .n r ∈ s.sourceType →
      0 < (neutronYield (.n r) : ℝ) * cellStrength s (.n r) i →
      ∃ d, neutronEnergySpectrum method (.n r) ((s.temperature[i]?).getD 0) = .ok d ∧
        IsNeutronDist method r ((s.temperature[i]?).getD 0) d := by
    intro i hi r hr hpos
    obtain ⟨t0, t1⟩ := hT i hi (hem i hi _ hr hpos)
    refine C69_distribution r _ t0 t1 method (fun hm => ?_)
    have := hD hm i hi _ hr hpos
    simpa using this
  let dist : Reaction → ℝ → NeutronDist := fun r t =>
    match neutronEnergySpectrum method r t with
    | .ok d => d
    | .error _ => .tabular []
  refine ⟨dist, ?_, ?_⟩
  · intro i hi r hr hpos
    obtain ⟨d, hd, hd'⟩ := hex i hi r hr (mul_pos (hyield r) hpos)
    have : dist (.n r) ((s.temperature[i]?).getD 0) = d := by simp only [dist, hd]
    rw [this]; exact hd'
  · refine C22_export_emitting h hch _ dist (fun i hi r hr hpos => ?_)
    cases r with
    | n r =>
      obtain ⟨d, hd, -⟩ := hex i hi r hr hpos
      simp only [dist, hd]
    | a r => cases r <;> simp [neutronYield] at hpos

/-- **C69**, export with `DATA`: if any cell emits D-T or D-D neutrons, `to_openmc_source` raises
`NotImplementedError`. -/
theorem C69_export_data {pi : ℝ} {Q : Reaction → ℝ} {sv : Reaction → List ℝ → Except Err (List ℝ)}
    {s : Source ℝ} (h : PhysReachable pi Q sv s) (i : ℕ) (hi : i < s.x.length) (r : Neutronic)
    (hr : r ≠ .T_T) (hrs : .n r ∈ s.sourceType) (hpos : 0 < cellStrength s (.n r) i) :
    s.toOpenmcSource .DATA = .error .notImplementedError := by
  have hyield : (0 : ℝ) < neutronYield (.n r) := by cases r <;> simp [neutronYield]
  obtain ⟨e, h1, j, hj, r', hr', hp', he⟩ := C22_failure h (neutronEnergySpectrum .DATA)
    ⟨i, hi, .n r, hrs, mul_pos hyield hpos, _, C69_no_data r hr _⟩
  rw [Source.toOpenmcSource, h1]
  congr 1
  cases r' with
  | a r' => cases r' <;> simp [neutronYield] at hp'
  | n r' =>
    by_cases hT : r' = .T_T
    · subst hT
      obtain ⟨d, hd, -⟩ := C69_TT ((s.temperature[j]?).getD 0) .DATA
      rw [hd] at he; cases he
    · rw [C69_no_data r' hT] at he
      simpa using he.symm

/-! ### The example source: two D-T cells at 2 and 3 keV -/
namespace Ex

/-- `AUTO` exports two rings; `DATA` raises. -/
example : (∃ rings, srcR.toOpenmcSource .AUTO = .ok rings ∧ rings.length = 2) ∧
    srcR.toOpenmcSource .DATA = .error .notImplementedError := by
  have hem : ∀ i < 2, 0 < emission srcR i := by
    intro i hi
    interval_cases i <;>
      norm_num [emission, srcR, neutronYield, cellStrength, Dict.getD, Dict.get?]
  refine ⟨?_, ?_⟩
  · obtain ⟨dist, -, e⟩ := C69_export physR (by simp [srcR]) .AUTO (by
      intro i hi _
      have hi : i < 2 := hi
      interval_cases i <;> norm_num [srcR]) (by simp)
    refine ⟨_, e, ?_⟩
    have e2 : srcR.x.length = 2 := rfl
    rw [e2, List.length_map, List.filter_eq_self.2]
    · simp
    · intro i hi
      exact decide_eq_true (hem i (List.mem_range.1 hi))
  · refine C69_export_data physR 0 (by simp [srcR]) .D_T (by simp) (by simp [srcR]) ?_
    norm_num [srcR, cellStrength, Dict.getD, Dict.get?]

end Ex
end
end TNS
