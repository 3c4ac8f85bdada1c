import Verif.Spec.SourceLimit
import Verif.Props.Refine
import Verif.Props.OpenMC
import Verif.Props.OpenMCSpectrum
import Mathlib.MeasureTheory.Integral.DominatedConvergence
import Mathlib.Topology.UniformSpace.HeineCantor
/-
C96: as the cells shrink, the exported OpenMC source tends to the neutron source of the plasma.
-/

set_option autoImplicit false

namespace TNS
open Spec Filter Topology MeasureTheory
noncomputable section

/-! ## Means over one ring -/

theorem tabular_nonneg {rLo rHi pLo pHi x : ℝ} (h : rLo < rHi) (h1 : 0 ≤ pLo) (h2 : 0 ≤ pHi) (hx : rLo ≤ x)
    (hx' : x ≤ rHi) : 0 ≤ tabularDensity rLo rHi pLo pHi x := by
  unfold tabularDensity
  have h3 : 0 < rHi - rLo := by linarith
  have e : pLo + (pHi - pLo) * (x - rLo) / (rHi - rLo) =
      (pLo * (rHi - x) + pHi * (x - rLo)) / (rHi - rLo) := by field_simp; ring
  rw [e]
  exact div_nonneg (add_nonneg (mul_nonneg h1 (by linarith)) (mul_nonneg h2 (by linarith))) h3.le

theorem tabular_continuous (rLo rHi pLo pHi : ℝ) : Continuous (tabularDensity rLo rHi pLo pHi) := by
  unfold tabularDensity; fun_prop

/-- The mean over a box is near any number that the function is near everywhere in the box. -/
theorem boxMean_close {g : ℝ × ℝ → ℝ} (hg : Continuous g) {rLo rHi pLo pHi zLo zHi c ω : ℝ} (hr : rLo < rHi)
    (hz : zLo < zHi) (h1 : 0 ≤ pLo) (h2 : 0 < pHi) (hω : 0 ≤ ω)
    (hc : ∀ x z, rLo ≤ x → x ≤ rHi → zLo ≤ z → z ≤ zHi → |g (x / 100, z / 100) - c| ≤ ω) :
    |boxMean g rLo rHi pLo pHi zLo zHi - c| ≤ ω := by
  set d := tabularDensity rLo rHi pLo pHi with hd
  have hdc : Continuous d := tabular_continuous _ _ _ _
  have hw : ∀ x, (∫ _ in zLo..zHi, d x) = (zHi - zLo) * d x := by
    intro x; rw [intervalIntegral.integral_const, smul_eq_mul]
  have hD : 0 < ∫ x in rLo..rHi, (zHi - zLo) * d x := by
    refine intervalIntegral.integral_pos hr (by fun_prop) (fun x hx => ?_) ⟨rHi, ⟨hr.le, le_rfl⟩, ?_⟩
    · exact mul_nonneg (by linarith) (tabular_nonneg hr h1 h2.le hx.1.le hx.2)
    · have : d rHi = pHi := by
        rw [hd]; unfold tabularDensity
        rw [mul_div_assoc, div_self (by linarith), mul_one]; ring
      rw [this]
      exact mul_pos (by linarith) h2
  have hcont : Continuous fun x => ∫ z in zLo..zHi, d x * g (x / 100, z / 100) := by
    refine intervalIntegral.continuous_parametric_intervalIntegral_of_continuous' ?_ _ _
    fun_prop
  have hkey : |(∫ x in rLo..rHi, ∫ z in zLo..zHi, d x * g (x / 100, z / 100)) - c * ∫ x in rLo..rHi, (zHi - zLo) * d x| ≤
      ω * ∫ x in rLo..rHi, (zHi - zLo) * d x := by
    rw [← intervalIntegral.integral_const_mul, ← intervalIntegral.integral_const_mul,
      ← intervalIntegral.integral_sub (hcont.intervalIntegrable _ _)
        ((by fun_prop : Continuous fun x => c * ((zHi - zLo) * d x)).intervalIntegrable _ _)]
    refine (intervalIntegral.abs_integral_le_integral_abs hr.le).trans ?_
    refine intervalIntegral.integral_mono_on hr.le (by
        refine Continuous.intervalIntegrable ?_ _ _
        exact (hcont.sub (by fun_prop)).abs) (by
        refine Continuous.intervalIntegrable ?_ _ _
        fun_prop) ?_
    intro x hx
    have hdx := tabular_nonneg hr h1 h2.le hx.1 hx.2
    rw [← hd] at hdx
    have e : (∫ z in zLo..zHi, d x * g (x / 100, z / 100)) - c * ((zHi - zLo) * d x) =
        ∫ z in zLo..zHi, d x * (g (x / 100, z / 100) - c) := by
      rw [← hw x, ← intervalIntegral.integral_const_mul, ← intervalIntegral.integral_sub]
      · refine intervalIntegral.integral_congr fun z _ => ?_
        ring
      · exact (by fun_prop : Continuous fun z => d x * g (x / 100, z / 100)).intervalIntegrable _ _
      · exact (by fun_prop : Continuous fun z : ℝ => c * d x).intervalIntegrable _ _
    rw [e, ← hw x, ← intervalIntegral.integral_const_mul]
    refine (intervalIntegral.abs_integral_le_integral_abs hz.le).trans ?_
    refine intervalIntegral.integral_mono_on hz.le ?_ ?_ ?_
    · exact (by fun_prop : Continuous fun z => |d x * (g (x / 100, z / 100) - c)|).intervalIntegrable _ _
    · exact (by fun_prop : Continuous fun z : ℝ => ω * d x).intervalIntegrable _ _
    · intro z hz
      rw [abs_mul, abs_of_nonneg hdx, mul_comm]
      exact mul_le_mul_of_nonneg_right (hc x z hx.1 hx.2 hz.1 hz.2) hdx
  unfold boxMean
  rw [← hd]
  simp only [hw]
  rw [div_sub' hD.ne', abs_div, abs_of_pos hD, div_le_iff₀ hD]
  rw [mul_comm _ c]
  exact hkey

/-- The mean over the ring exported for the cell of side `L` centred at `p`. -/
def cellMean (g : ℝ × ℝ → ℝ) (L : ℝ) (p : ℝ × ℝ) : ℝ :=
  boxMean g (100 * (p.1 - L / 2)) (100 * (p.1 + L / 2)) ((p.1 - L / 2) / (2 * p.1)) ((p.1 + L / 2) / (2 * p.1))
    (100 * (p.2 - L / 2)) (100 * (p.2 + L / 2))

theorem cellMean_close {g : ℝ × ℝ → ℝ} (hg : Continuous g) {L ω : ℝ} {p : ℝ × ℝ} (hL : 0 < L) (hp : L / 2 ≤ p.1)
    (hω : 0 ≤ ω) (hc : ∀ q : ℝ × ℝ, |q.1 - p.1| ≤ L / 2 → |q.2 - p.2| ≤ L / 2 → |g q - g p| ≤ ω) :
    |cellMean g L p - g p| ≤ ω := by
  have h0 : 0 < p.1 := by linarith
  refine boxMean_close hg (by linarith) (by linarith) (div_nonneg (by linarith) (by linarith))
    (div_pos (by linarith) (by linarith)) hω ?_
  intro x z x1 x2 z1 z2
  refine hc _ ?_ ?_
  · rw [abs_le]; constructor <;> simp only <;> linarith
  · rw [abs_le]; constructor <;> simp only <;> linarith

/-! ## The mean over all rings -/

theorem sum_filter_zero {α : Type} (l : List α) (q : α → Bool) (f : α → ℝ) (h : ∀ a ∈ l, q a = false → f a = 0) :
    ((l.filter q).map f).sum = (l.map f).sum := by
  induction l with
  | nil => rfl
  | cons a l ih =>
    have ih := ih fun b hb => h b (List.mem_cons_of_mem _ hb)
    rw [List.filter_cons]
    cases hq : q a with
    | true => simp [ih]
    | false => simp [ih, h a (by simp) hq]

theorem mean_formula {E : Type} {pi : ℝ} {Q : Reaction → ℝ} {sv : Reaction → List ℝ → Except Err (List ℝ)}
    {s : Source ℝ} (h : PhysReachable pi Q sv s) (hch : s.sourceType ≠ [])
    (spectrum : Reaction → ℝ → Except Err E) (sp : Reaction → ℝ → E) (phi : E → ℝ × ℝ → ℝ)
    (pts : List (ℝ × ℝ)) (τ : ℝ × ℝ → ℝ) (L k : ℝ) (w : Reaction → ℝ × ℝ → ℝ)
    (hsp : ∀ r ∈ s.sourceType, 0 < neutronYield r → ∀ p ∈ pts, spectrum r (τ p) = .ok (sp r (τ p)))
    (hx : s.x = pts.map Prod.fst) (hz : s.z = pts.map Prod.snd) (ht : s.temperature = pts.map τ)
    (hL : s.cellSideLength = L) (hk : 0 < k)
    (hstr : ∀ r ∈ s.sourceType, s.strength.get? r = some (pts.map fun p => k * w r p)) :
    ∃ rings, s.toOpenmc spectrum = .ok rings ∧ openmcMean phi rings =
      (s.sourceType.map fun r => (neutronYield r : ℝ) *
        (pts.map fun p => w r p * cellMean (phi (sp r (τ p))) L p).sum).sum /
      (s.sourceType.map fun r => (neutronYield r : ℝ) * (pts.map (w r)).sum).sum := by
  have hlen : s.x.length = pts.length := by rw [hx, List.length_map]
  have hcs : ∀ r ∈ s.sourceType, ∀ i : ℕ, ∀ hi : i < pts.length, cellStrength s r i = k * w r pts[i] := by
    intro r hr i hi
    unfold cellStrength Dict.getD
    rw [hstr r hr]
    simp [hi]
  have hT : ∀ i : ℕ, ∀ hi : i < pts.length, (s.temperature[i]?).getD 0 = τ pts[i] := by
    intro i hi; rw [ht]; simp [hi]
  have hX : ∀ i : ℕ, ∀ hi : i < pts.length, (s.x[i]?).getD 0 = pts[i].1 := by
    intro i hi; rw [hx]; simp [hi]
  have hZ : ∀ i : ℕ, ∀ hi : i < pts.length, (s.z[i]?).getD 0 = pts[i].2 := by
    intro i hi; rw [hz]; simp [hi]
  have hexp := C22_export_emitting h hch spectrum sp (by
    intro i hi r hr hpos
    rw [hlen] at hi
    rw [hT i hi]
    refine hsp r hr ?_ _ (List.getElem_mem hi)
    by_contra h0
    have : neutronYield r = 0 := by omega
    rw [this] at hpos; simp at hpos)
  refine ⟨_, hexp, ?_⟩
  have hnn : ∀ r i, 0 ≤ (neutronYield r : ℝ) * cellStrength s r i := fun r i =>
    mul_nonneg (Nat.cast_nonneg _) (h.phys.2.cellStrength_nonneg r i)
  set M : Reaction → ℕ → ℝ := fun r i => cellMean (phi (sp r (τ (pts.getD i default)))) L (pts.getD i default) with hM
  -- one cell
  have cell : ∀ i ∈ List.range s.x.length, 0 < emission s i →
      finValue (ringAt s sp i ((s.x[i]?).getD 0) ((s.z[i]?).getD 0) ((s.temperature[i]?).getD 0)).strength *
        ((ringAt s sp i ((s.x[i]?).getD 0) ((s.z[i]?).getD 0) ((s.temperature[i]?).getD 0)).energy.map fun q => q.1 *
          ringMean (phi q.2) (ringAt s sp i ((s.x[i]?).getD 0) ((s.z[i]?).getD 0) ((s.temperature[i]?).getD 0))).sum =
      (s.sourceType.map fun r => (neutronYield r : ℝ) * cellStrength s r i * M r i).sum / s.sourceRate := by
    intro i hi hpos
    have hi := List.mem_range.1 hi
    rw [hlen] at hi
    rw [hX i hi, hZ i hi, hT i hi]
    have eg : pts.getD i default = pts[i] := by simp [hi]
    simp only [ringAt, finValue, mixtureAt, List.map_map]
    have e1 : ((s.sourceType.filter fun r => decide (0 < (neutronYield r : ℝ) * cellStrength s r i)).map
        ((fun q : ℝ × E => q.1 * ringMean (phi q.2) (ringAt s sp i pts[i].1 pts[i].2 (τ pts[i]))) ∘
          fun r => ((neutronYield r : ℝ) * cellStrength s r i / emission s i, sp r (τ pts[i])))).sum =
        (s.sourceType.map fun r => (neutronYield r : ℝ) * cellStrength s r i * M r i).sum / emission s i := by
      rw [sum_filter_zero]
      · rw [div_eq_mul_inv, ← List.sum_map_mul_right]
        congr 1
        refine List.map_congr_left ?_
        intro r _
        simp only [Function.comp_apply, hM, eg, ringMean, ringAt, hL, cellMean]
        ring
      · intro r _ hq
        have : ¬ 0 < (neutronYield r : ℝ) * cellStrength s r i := by simpa using hq
        have : (neutronYield r : ℝ) * cellStrength s r i = 0 := le_antisymm (not_lt.1 this) (hnn r i)
        simp [this]
    change emission s i / s.sourceRate * _ = _
    have e2 := e1
    simp only [ringAt, mixtureAt] at e2
    rw [e2]
    field_simp
  have hem : ∀ i, emission s i = (s.sourceType.map fun r => (neutronYield r : ℝ) * cellStrength s r i).sum := fun i => rfl
  have e3 : openmcMean phi (((List.range s.x.length).filter fun i => decide (0 < emission s i)).map fun i =>
      ringAt s sp i ((s.x[i]?).getD 0) ((s.z[i]?).getD 0) ((s.temperature[i]?).getD 0)) =
      ((List.range s.x.length).map fun i =>
        (s.sourceType.map fun r => (neutronYield r : ℝ) * cellStrength s r i * M r i).sum / s.sourceRate).sum := by
    unfold openmcMean
    rw [List.map_map]
    rw [← sum_filter_zero (List.range s.x.length) (fun i => decide (0 < emission s i))]
    · congr 1
      refine List.map_congr_left ?_
      intro i hi
      obtain ⟨h1, h2⟩ := List.mem_filter.1 hi
      exact cell i h1 (by simpa using h2)
    · intro i _ hq
      have h1 : ¬ 0 < emission s i := by simpa using hq
      have h2 : emission s i = 0 := le_antisymm (not_lt.1 h1) (emission_nonneg h.phys.2 i)
      have h3 : ∀ r ∈ s.sourceType, (neutronYield r : ℝ) * cellStrength s r i = 0 := by
        intro r hr
        refine le_antisymm ?_ (hnn r i)
        rw [← h2]
        exact List.single_le_sum (by
          intro a ha
          obtain ⟨q, -, rfl⟩ := List.mem_map.1 ha
          exact hnn q i) _ (List.mem_map.2 ⟨r, hr, rfl⟩)
      have h4 : (s.sourceType.map fun r => (neutronYield r : ℝ) * cellStrength s r i * M r i) =
          s.sourceType.map fun _ => (0 : ℝ) := List.map_congr_left fun r hr => by rw [h3 r hr, zero_mul]
      rw [h4]; simp
  rw [e3]
  have swap : ∀ (F : Reaction → ℕ → ℝ) (G : Reaction → ℝ × ℝ → ℝ),
      (∀ r ∈ s.sourceType, ∀ i : ℕ, ∀ hi : i < pts.length, F r i = G r pts[i]) →
      ((List.range s.x.length).map fun i => (s.sourceType.map fun r => F r i).sum).sum =
        (s.sourceType.map fun r => (pts.map (G r)).sum).sum := by
    intro F G hFG
    rw [sum_map_sum_comm]
    congr 1
    refine List.map_congr_left ?_
    intro r hr
    congr 1
    rw [hlen]
    refine List.ext_getElem (by simp) ?_
    intro i h1 h2
    simp at h1
    simp [hFG r hr i h1]
  rw [(rate_eq_sum_emission h).1]
  have hnum : ((List.range s.x.length).map fun i =>
        (s.sourceType.map fun r => (neutronYield r : ℝ) * cellStrength s r i * M r i).sum).sum =
      k * (s.sourceType.map fun r => (neutronYield r : ℝ) *
        (pts.map fun p => w r p * cellMean (phi (sp r (τ p))) L p).sum).sum := by
    rw [swap _ (fun r p => k * ((neutronYield r : ℝ) * (w r p * cellMean (phi (sp r (τ p))) L p)))]
    · rw [← List.sum_map_mul_left]
      congr 1
      refine List.map_congr_left ?_
      intro r _
      rw [List.sum_map_mul_left, List.sum_map_mul_left]
    · intro r hr i hi
      have eg : pts.getD i default = pts[i] := by simp [hi]
      rw [hcs r hr i hi]
      simp only [hM, eg]
      ring
  have hden : ((List.range s.x.length).map fun i => emission s i).sum =
      k * (s.sourceType.map fun r => (neutronYield r : ℝ) * (pts.map (w r)).sum).sum := by
    simp only [hem]
    rw [swap _ (fun r p => k * ((neutronYield r : ℝ) * w r p))]
    · rw [← List.sum_map_mul_left]
      congr 1
      refine List.map_congr_left ?_
      intro r _
      rw [List.sum_map_mul_left, List.sum_map_mul_left]
    · intro r hr i hi
      rw [hcs r hr i hi]
      ring
  rw [hden]
  simp only [div_eq_mul_inv]
  rw [List.sum_map_mul_right, hnum, ← div_eq_mul_inv, mul_div_mul_left _ _ hk.ne', ← div_eq_mul_inv]

/-! ## The limit -/

theorem weighted_limit (xs zs : List ℝ) (inside : ℝ × ℝ → Bool) (hbox : WithinBox xs zs inside)
    (hnull : volume (frontier {p | inside p = true}) = 0) (oX oZ : ℝ) (F f : ℝ × ℝ → ℝ) (C C' : ℝ)
    (hF0 : ∀ p, inside p = true → 0 ≤ F p) (hC : ∀ p, inside p = true → |F p| ≤ C)
    (hC' : ∀ p, inside p = true → |f p| ≤ C')
    (hF : ContinuousOn F (interior {p | inside p = true})) (hf : ContinuousOn f (interior {p | inside p = true}))
    (G : ℝ → ℝ × ℝ → ℝ)
    (hG : ∀ ω > 0, ∀ᶠ L in 𝓝[>] (0 : ℝ), ∀ p, inside p = true → |G L p - f p| ≤ ω) :
    Tendsto (fun L : ℝ => ((samplePoints xs zs inside oX oZ L).map (fun p => F p * L ^ 2 * G L p)).sum)
      (𝓝[>] 0) (𝓝 (∫ p in {p | inside p = true}, f p * F p)) := by
  have hB := riemann_sum xs zs inside hbox hnull oX oZ F C hC hF
  have hA := riemann_sum xs zs inside hbox hnull oX oZ (fun p => f p * F p) (C' * C) (by
    intro p hp
    rw [abs_mul]
    exact mul_le_mul (hC' p hp) (hC p hp) (abs_nonneg _) ((abs_nonneg _).trans (hC' p hp))) (hf.mul hF)
  set I := ∫ p in {p | inside p = true}, F p with hI
  have hdiff : Tendsto (fun L : ℝ => ((samplePoints xs zs inside oX oZ L).map (fun p => F p * L ^ 2 * G L p)).sum -
      ((samplePoints xs zs inside oX oZ L).map (fun p => f p * F p * L ^ 2)).sum) (𝓝[>] 0) (𝓝 0) := by
    rw [Metric.tendsto_nhds]
    intro ε hε
    have hω : 0 < ε / (|I| + 2) := div_pos hε (by positivity)
    filter_upwards [hG _ hω, hB.eventually (gt_mem_nhds (show I < |I| + 1 by linarith [le_abs_self I])),
      self_mem_nhdsWithin] with L h1 h2 h3
    rw [Real.dist_0_eq_abs]
    have hle : ∀ l : List (ℝ × ℝ), (∀ p ∈ l, inside p = true) →
        |(l.map fun p => F p * L ^ 2 * G L p).sum - (l.map fun p => f p * F p * L ^ 2).sum| ≤
          ε / (|I| + 2) * (l.map fun p => F p * L ^ 2).sum := by
      intro l hl
      induction l with
      | nil => simp
      | cons p l ih =>
        simp only [List.map_cons, List.sum_cons]
        have i1 := ih fun q hq => hl q (List.mem_cons_of_mem _ hq)
        have hp := hl p (by simp)
        have i2 : |F p * L ^ 2 * G L p - f p * F p * L ^ 2| ≤ ε / (|I| + 2) * (F p * L ^ 2) := by
          have : F p * L ^ 2 * G L p - f p * F p * L ^ 2 = (G L p - f p) * (F p * L ^ 2) := by ring
          have hn : 0 ≤ F p * L ^ 2 := mul_nonneg (hF0 p hp) (sq_nonneg _)
          rw [this, abs_mul, abs_of_nonneg hn]
          exact mul_le_mul_of_nonneg_right (h1 p hp) hn
        calc _ = |(F p * L ^ 2 * G L p - f p * F p * L ^ 2) +
            ((l.map fun p => F p * L ^ 2 * G L p).sum - (l.map fun p => f p * F p * L ^ 2).sum)| := by congr 1; ring
          _ ≤ _ := abs_add_le _ _
          _ ≤ _ := by linarith
    refine (hle _ fun p hp => (List.mem_filter.1 hp).2).trans_lt ?_
    calc ε / (|I| + 2) * ((samplePoints xs zs inside oX oZ L).map fun p => F p * L ^ 2).sum
        ≤ ε / (|I| + 2) * (|I| + 1) := mul_le_mul_of_nonneg_left h2.le hω.le
      _ < ε / (|I| + 2) * (|I| + 2) := mul_lt_mul_of_pos_left (by linarith) hω
      _ = ε := by field_simp
  have := hdiff.add hA
  simpa using this

theorem list_min_pos (l : List ℝ) (h : ∀ a ∈ l, 0 < a) : ∃ c > 0, ∀ a ∈ l, c ≤ a := by
  induction l with
  | nil => exact ⟨1, one_pos, by simp⟩
  | cons a l ih =>
    obtain ⟨c, c0, hc⟩ := ih fun b hb => h b (List.mem_cons_of_mem _ hb)
    refine ⟨min a c, lt_min (h a (by simp)) c0, ?_⟩
    intro b hb
    rcases List.mem_cons.1 hb with rfl | hb
    · exact min_le_left _ _
    · exact (min_le_right _ _).trans (hc b hb)

theorem tendsto_listSum {α : Type} (l : List α) (f : α → ℝ → ℝ) (a : α → ℝ) (F : Filter ℝ)
    (h : ∀ x ∈ l, Tendsto (f x) F (𝓝 (a x))) :
    Tendsto (fun L => (l.map fun x => f x L).sum) F (𝓝 (l.map a).sum) := by
  induction l with
  | nil => exact tendsto_const_nhds
  | cons x l ih =>
    simp only [List.map_cons, List.sum_cons]
    exact (h x (by simp)).add (ih fun y hy => h y (List.mem_cons_of_mem _ hy))

/-- A mean over a cell of side `L` around a point: near the value of a function there if the function varies little in the
cell. -/
def CellAverage (M : (ℝ × ℝ → ℝ) → ℝ → ℝ × ℝ → ℝ) : Prop :=
  ∀ (g : ℝ × ℝ → ℝ) (_ : Continuous g) (L ω : ℝ) (p : ℝ × ℝ), 0 < L → L / 2 ≤ p.1 → 0 ≤ ω →
    (∀ q : ℝ × ℝ, |q.1 - p.1| ≤ L / 2 → |q.2 - p.2| ≤ L / 2 → |g q - g p| ≤ ω) → |M g L p - g p| ≤ ω

theorem cellMean_average : CellAverage cellMean := fun _ hg _ _ _ hL hp hω hc => cellMean_close hg hL hp hω hc

/-- Means over shrinking cells tend to the value, uniformly over the plasma. -/
theorem average_uniform {M : (ℝ × ℝ → ℝ) → ℝ → ℝ × ℝ → ℝ} (hM : CellAverage M) (pts : List (ℝ × ℝ))
    (hv : ∀ v ∈ pts, 0 < v.1) (K : Set ℝ) (hK : IsCompact K)
    (Phi : ℝ → ℝ × ℝ → ℝ) (hPhi : ContinuousOn (fun q : ℝ × ℝ × ℝ => Phi q.1 q.2) (K ×ˢ Set.univ))
    (τ : ℝ × ℝ → ℝ) (hτ : ∀ p, τ p ∈ K) :
    (∃ C, ∀ p, containsPoint pts p = true → |Phi (τ p) p| ≤ C) ∧
    ∀ ω > 0, ∀ᶠ L in 𝓝[>] (0 : ℝ), ∀ p, containsPoint pts p = true → |M (Phi (τ p)) L p - Phi (τ p) p| ≤ ω := by
  set X1 := npMin (pts.map Prod.fst)
  set X2 := npMax (pts.map Prod.fst)
  set Z1 := npMin (pts.map Prod.snd)
  set Z2 := npMax (pts.map Prod.snd)
  set B : Set (ℝ × ℝ) := Set.Icc (X1 - 1) (X2 + 1) ×ˢ Set.Icc (Z1 - 1) (Z2 + 1) with hB
  have hBc : IsCompact (K ×ˢ B) := hK.prod (isCompact_Icc.prod isCompact_Icc)
  have hPc : ContinuousOn (fun q : ℝ × ℝ × ℝ => Phi q.1 q.2) (K ×ˢ B) :=
    hPhi.mono (Set.prod_mono le_rfl (Set.subset_univ _))
  have hin : ∀ p, containsPoint pts p = true → X1 ≤ p.1 ∧ p.1 ≤ X2 ∧ Z1 ≤ p.2 ∧ p.2 ≤ Z2 := by
    intro p hp
    obtain ⟨⟨a, ha, ha'⟩, ⟨b, hb, hb'⟩, ⟨c, hc1, hc'⟩, ⟨d, hd, hd'⟩⟩ := C65_within_box pts p hp
    exact ⟨(npMin_le _ a ha).trans ha', hb'.trans (le_npMax _ b hb), (npMin_le _ c hc1).trans hc',
      hd'.trans (le_npMax _ d hd)⟩
  constructor
  · obtain ⟨C, hC⟩ := hBc.exists_bound_of_continuousOn hPc
    refine ⟨C, fun p hp => ?_⟩
    obtain ⟨h1, h2, h3, h4⟩ := hin p hp
    exact hC (τ p, p) ⟨hτ p, ⟨by linarith, by linarith⟩, by linarith, by linarith⟩
  · intro ω hω
    have huc := hBc.uniformContinuousOn_of_continuous hPc
    rw [Metric.uniformContinuousOn_iff] at huc
    obtain ⟨δ, hδ, huc⟩ := huc ω hω
    obtain ⟨x0, hx0, hmin⟩ := list_min_pos (pts.map Prod.fst) (by
      intro a ha
      obtain ⟨v, hvm, rfl⟩ := List.mem_map.1 ha
      exact hv v hvm)
    have hsmall : ∀ᶠ L in 𝓝[>] (0 : ℝ), L < min (min δ 1) x0 :=
      mem_nhdsWithin_of_mem_nhds (Iio_mem_nhds (lt_min (lt_min hδ one_pos) hx0))
    filter_upwards [hsmall, self_mem_nhdsWithin] with L hL hL0 p hp
    have hL0 : 0 < L := hL0
    obtain ⟨h1, h2, h3, h4⟩ := hin p hp
    obtain ⟨⟨a, ha, ha'⟩, -⟩ := C65_within_box pts p hp
    have l1 : L < δ := hL.trans_le ((min_le_left _ _).trans (min_le_left _ _))
    have l2 : L < 1 := hL.trans_le ((min_le_left _ _).trans (min_le_right _ _))
    have l3 : L < x0 := hL.trans_le (min_le_right _ _)
    have hgc : Continuous (Phi (τ p)) := by
      rw [← continuousOn_univ]
      exact hPhi.comp (f := fun q : ℝ × ℝ => (τ p, q)) (by fun_prop) (fun q _ => ⟨hτ p, trivial⟩)
    refine hM _ hgc L ω p hL0 (by linarith [hmin a ha]) hω.le ?_
    intro q q1 q2
    have q1' := abs_le.1 q1
    have q2' := abs_le.1 q2
    have hd := huc (τ p, q) ⟨hτ p, ⟨by linarith, by linarith⟩, by linarith, by linarith⟩ (τ p, p)
      ⟨hτ p, ⟨by linarith, by linarith⟩, by linarith, by linarith⟩ (by
        rw [Prod.dist_eq, Prod.dist_eq, dist_self, Real.dist_eq, Real.dist_eq]
        refine max_lt hδ (max_lt ?_ ?_)
        · exact q1.trans_lt (by linarith)
        · exact q2.trans_lt (by linarith))
    rw [Real.dist_eq] at hd
    exact hd.le

section limit
variable {u : SI} {m : Masses ℝ} {method : ReactivityMethod} {st : List Reaction} {tr : Transport}
  {T : ℝ → ℝ} {n : Species → ℝ → ℝ}

theorem range_compact (hv : ProfilesAre tr T n) (hp : ContinuousPlasma method st T n) : IsCompact (Set.range T) := by
  have : Set.range T = T '' Set.Icc 0 1 := by
    ext t
    constructor
    · rintro ⟨rho, rfl⟩
      refine ⟨clip 0 1 rho, clip_mem rho, ?_⟩
      have := hv.temperature (clip 0 1 rho)
      rw [Profile.value_clip, hv.temperature] at this
      exact (Except.ok.inj this).symm
    · rintro ⟨rho, -, rfl⟩
      exact ⟨rho, rfl⟩
  rw [this]
  exact isCompact_Icc.image hp.T_cont

/-- One channel: sums over the cells of rate times mean over the cell tend to the integral. -/
theorem channel_limit {M : (ℝ × ℝ → ℝ) → ℝ → ℝ × ℝ → ℝ} (hM : CellAverage M) (hd : PhysicalData u m) (hv : ProfilesAre tr T n) (hp : ContinuousPlasma method st T n)
    (fm : ParamMap) (hfm : Roomy fm) (psi : ℝ → ℝ → ℝ)
    (hpsi : ContinuousOn (fun p : ℝ × ℝ => psi p.1 p.2) {p | containsPoint fm.lcfs p = true})
    (r : Reaction) (hr : r ∈ st) (Phi : ℝ → ℝ × ℝ → ℝ)
    (hPhi : ContinuousOn (fun q : ℝ × ℝ × ℝ => Phi q.1 q.2) (Set.range T ×ˢ Set.univ)) (oX oZ : ℝ) :
    Tendsto (fun L : ℝ => ((samplePoints (fm.lcfs.map Prod.fst) (fm.lcfs.map Prod.snd) (containsPoint fm.lcfs) oX oZ L).map
      fun p => localRate u m method T n r (psi p.1 p.2) * (2 * Real.pi * p.1 * L ^ 2) *
        M (Phi (T (psi p.1 p.2))) L p).sum) (𝓝[>] 0)
      (𝓝 (∫ p in {p | containsPoint fm.lcfs p = true}, Phi (T (psi p.1 p.2)) p *
        (localRate u m method T n r (psi p.1 p.2) * (2 * Real.pi * p.1)))) := by
  obtain ⟨C, hC⟩ := localRate_bounded hd hp hv r hr
  obtain ⟨⟨C', hC'⟩, hG⟩ := average_uniform hM fm.lcfs hfm.2.1 (Set.range T) (range_compact hv hp) Phi hPhi
    (fun p => T (psi p.1 p.2)) (fun p => ⟨_, rfl⟩)
  have hpi := hpsi.mono (interior_subset (s := {p | containsPoint fm.lcfs p = true}))
  have hnn : ∀ rho, 0 ≤ localRate u m method T n r rho := localRate_nonneg hd hp r hr
  refine (weighted_limit _ _ _ (C65_within_box fm.lcfs) (C65_null_boundary fm.lcfs) oX oZ
    (fun p => localRate u m method T n r (psi p.1 p.2) * (2 * Real.pi * p.1)) (fun p => Phi (T (psi p.1 p.2)) p)
    (C * (2 * Real.pi * max |npMin (fm.lcfs.map Prod.fst)| |npMax (fm.lcfs.map Prod.fst)|)) C' ?_ ?_ hC' ?_ ?_
    (fun L p => M (Phi (T (psi p.1 p.2))) L p) hG).congr ?_
  · intro p hpp
    have := hfm.1.1 p hpp
    have := Real.pi_pos
    exact mul_nonneg (hnn _) (by positivity)
  · intro p hpp
    obtain ⟨⟨a, ha, ha'⟩, ⟨b, hb, hb'⟩, _⟩ := C65_within_box fm.lcfs p hpp
    rw [abs_mul, abs_mul, abs_of_pos Real.two_pi_pos]
    refine mul_le_mul (hC _) ?_ (by positivity) ((abs_nonneg _).trans (hC 0))
    refine mul_le_mul_of_nonneg_left ?_ Real.two_pi_pos.le
    exact abs_le_max_abs_abs ((npMin_le _ a ha).trans ha') (hb'.trans (le_npMax _ b hb))
  · exact ((localRate_continuous hd hp r hr).comp_continuousOn hpi).mul (by fun_prop)
  · exact hPhi.comp (f := fun p : ℝ × ℝ => (T (psi p.1 p.2), p))
      ((hp.T_cont.comp_continuousOn hpi).prodMk continuousOn_id) (fun p _ => ⟨⟨_, rfl⟩, trivial⟩)
  · intro L
    congr 1
    refine List.map_congr_left ?_
    intro p _
    ring

/-- One channel: sums over the cells of the rate tend to the integral. -/
theorem rate_limit (hd : PhysicalData u m) (hv : ProfilesAre tr T n) (hp : ContinuousPlasma method st T n)
    (fm : ParamMap) (psi : ℝ → ℝ → ℝ)
    (hpsi : ContinuousOn (fun p : ℝ × ℝ => psi p.1 p.2) {p | containsPoint fm.lcfs p = true})
    (r : Reaction) (hr : r ∈ st) (oX oZ : ℝ) :
    Tendsto (fun L : ℝ => ((samplePoints (fm.lcfs.map Prod.fst) (fm.lcfs.map Prod.snd) (containsPoint fm.lcfs) oX oZ L).map
      fun p => localRate u m method T n r (psi p.1 p.2) * (2 * Real.pi * p.1 * L ^ 2)).sum) (𝓝[>] 0)
      (𝓝 (plasmaRate u m method T n psi {p | containsPoint fm.lcfs p = true} r)) := by
  obtain ⟨C, hC⟩ := localRate_bounded hd hp hv r hr
  have hpi := hpsi.mono (interior_subset (s := {p | containsPoint fm.lcfs p = true}))
  refine (riemann_sum _ _ _ (C65_within_box fm.lcfs) (C65_null_boundary fm.lcfs) oX oZ
    (fun p => localRate u m method T n r (psi p.1 p.2) * (2 * Real.pi * p.1))
    (C * (2 * Real.pi * max |npMin (fm.lcfs.map Prod.fst)| |npMax (fm.lcfs.map Prod.fst)|)) ?_ ?_).congr ?_
  · intro p hpp
    obtain ⟨⟨a, ha, ha'⟩, ⟨b, hb, hb'⟩, _⟩ := C65_within_box fm.lcfs p hpp
    rw [abs_mul, abs_mul, abs_of_pos Real.two_pi_pos]
    refine mul_le_mul (hC _) ?_ (by positivity) ((abs_nonneg _).trans (hC 0))
    refine mul_le_mul_of_nonneg_left ?_ Real.two_pi_pos.le
    exact abs_le_max_abs_abs ((npMin_le _ a ha).trans ha') (hb'.trans (le_npMax _ b hb))
  · exact ((localRate_continuous hd hp r hr).comp_continuousOn hpi).mul (by fun_prop)
  · intro L
    congr 1
    refine List.map_congr_left ?_
    intro p _
    ring

/-- The cells of a source built for the profiles `T`, `n`, whether or not it was normalised. -/
theorem source_cells {c : ℝ} (hc : GoodConstants u m c) (arg : SourceArg)
    (hst : parseSourceType arg = .ok st) (hv : ProfilesAre tr T n)
    (hp : ContinuousPlasma method st T n) (fm : ParamMap) (hfm : Roomy fm) (psi : ℝ → ℝ → ℝ)
    (r0 : Reaction) (hr0 : r0 ∈ st) (hb : Burns tr r0 (psi fm.oPoint.x fm.oPoint.z)) (P : ℝ) (hP : 0 < P)
    (L : ℝ) (hL : 0 < L) :
    ∃ s k, makeSource u m c tr (fm.view psi) arg L (some P) method = .ok s ∧
      PhysReachable Real.pi (totalEnergy m c) (reactivity u m method) s ∧ s.sourceType = st ∧ 0 < k ∧
      s.x = (samplePoints (fm.lcfs.map Prod.fst) (fm.lcfs.map Prod.snd) (containsPoint fm.lcfs) fm.oPoint.x fm.oPoint.z
        L).map Prod.fst ∧
      s.z = (samplePoints (fm.lcfs.map Prod.fst) (fm.lcfs.map Prod.snd) (containsPoint fm.lcfs) fm.oPoint.x fm.oPoint.z
        L).map Prod.snd ∧
      s.temperature = (samplePoints (fm.lcfs.map Prod.fst) (fm.lcfs.map Prod.snd) (containsPoint fm.lcfs) fm.oPoint.x
        fm.oPoint.z L).map (fun p => T (psi p.1 p.2)) ∧
      s.cellSideLength = L ∧
      ∀ r ∈ st, s.strength.get? r = some ((samplePoints (fm.lcfs.map Prod.fst) (fm.lcfs.map Prod.snd)
        (containsPoint fm.lcfs) fm.oPoint.x fm.oPoint.z L).map
        fun p => k * (localRate u m method T n r (psi p.1 p.2) * (2 * Real.pi * p.1 * L ^ 2))) := by
  obtain ⟨s0, s, k, h0, hs, hphys, -, hty, hx, hz, ht, hcl, hk, hstr, -⟩ :=
    power_of hc method arg st hst tr (good_of_continuous hp hv) fm hfm.1 psi L hL r0 hr0 hb P hP
  have hR : Realises ⟨T, n, thermalReactivity u m method⟩ (reactivity u m method) tr.view (fm.view psi)
      st :=
    { temperature := fun p _ => hv.temperature _
      deuterium := fun p _ => hv.deuterium _
      tritium := fun p _ => hv.tritium _
      helium3 := fun p _ => hv.helium3 _
      sv := fun r hr ts hne hts => C51_dispatch u m hc.data method r ts hne fun t ht => by
        obtain ⟨p, -, rfl⟩ := hts t ht
        exact hp.T_good _ r hr }
  obtain ⟨-, hT0, hstr0⟩ := (closed_form_aux Real.pi (totalEnergy m c) (reactivity u m method) tr.view (fm.view psi) _ arg
    st hst hR L).2 s0 h0
  have hxz : s0.x = (samplePoints (fm.lcfs.map Prod.fst) (fm.lcfs.map Prod.snd) (containsPoint fm.lcfs) fm.oPoint.x
        fm.oPoint.z L).map Prod.fst ∧ s0.z = (samplePoints (fm.lcfs.map Prod.fst) (fm.lcfs.map Prod.snd)
        (containsPoint fm.lcfs) fm.oPoint.x fm.oPoint.z L).map Prod.snd := by
    have h0' : Source.init Real.pi (totalEnergy m c) (reactivity u m method) tr.view (fm.view psi) arg L
      none = .ok s0 := h0
    obtain ⟨_, _, _, _, _, _, _, _, _, _, e1, e2, _⟩ := Source.init_none h0'
    exact ⟨e1, e2⟩
  refine ⟨s, k, hs, hphys, hty, hk, hx.trans hxz.1, hz.trans hxz.2, ht.trans hT0, hcl, ?_⟩
  intro r hr
  rw [hstr r, hstr0 r hr]
  simp only [Option.map_some, List.map_map, Option.some.injEq]
  refine List.map_congr_left ?_
  intro p _
  simp only [Function.comp_apply, emissivity, localRate, ParamMap.view]
  ring

theorem openmc_of {c : ℝ} (hc : GoodConstants u m c) (arg : SourceArg)
    (hst : parseSourceType arg = .ok st) (hv : ProfilesAre tr T n)
    (hp : ContinuousPlasma method st T n) (fm : ParamMap) (hfm : Roomy fm) (psi : ℝ → ℝ → ℝ)
    (hpsi : ContinuousOn (fun p : ℝ × ℝ => psi p.1 p.2) {p | containsPoint fm.lcfs p = true})
    (r0 : Reaction) (hr0 : r0 ∈ st) (hy : 0 < neutronYield r0) (hb : Burns tr r0 (psi fm.oPoint.x fm.oPoint.z))
    (P : ℝ) (hP : 0 < P) {E : Type} (spectrum : Reaction → ℝ → Except Err E) (sp : Reaction → ℝ → E)
    (hsp : ∀ r ∈ st, 0 < neutronYield r → ∀ rho, spectrum r (T rho) = .ok (sp r (T rho)))
    (phi : E → ℝ × ℝ → ℝ)
    (hphi : ∀ r ∈ st, 0 < neutronYield r →
      ContinuousOn (fun q : ℝ × ℝ × ℝ => phi (sp r q.1) q.2) (Set.range T ×ˢ Set.univ)) :
    ∃ (s : ℝ → Source ℝ) (rings : ℝ → List (Ring ℝ E)),
      (∀ L > 0, makeSource u m c tr (fm.view psi) arg L (some P) method = .ok (s L) ∧
        (s L).toOpenmc spectrum = .ok (rings L)) ∧
      0 < plasmaNeutrons u m method T n psi {p | containsPoint fm.lcfs p = true} st (fun _ _ _ => 1) ∧
      Tendsto (fun L => openmcMean phi (rings L)) (𝓝[>] 0)
        (𝓝 (plasmaNeutrons u m method T n psi {p | containsPoint fm.lcfs p = true} st (fun r t p => phi (sp r t) p) /
          plasmaNeutrons u m method T n psi {p | containsPoint fm.lcfs p = true} st (fun _ _ _ => 1))) := by
  have hne : st ≠ [] := List.ne_nil_of_mem hr0
  set pts := fun L : ℝ => samplePoints (fm.lcfs.map Prod.fst) (fm.lcfs.map Prod.snd) (containsPoint fm.lcfs) fm.oPoint.x
    fm.oPoint.z L with hpts
  have hex : ∀ L : ℝ, ∃ (s : Source ℝ) (rings : List (Ring ℝ E)), 0 < L →
      (makeSource u m c tr (fm.view psi) arg L (some P) method = .ok s ∧ s.toOpenmc spectrum = .ok rings) ∧
      openmcMean phi rings = (st.map fun r => (neutronYield r : ℝ) *
        ((pts L).map fun p => localRate u m method T n r (psi p.1 p.2) * (2 * Real.pi * p.1 * L ^ 2) *
          cellMean (phi (sp r (T (psi p.1 p.2)))) L p).sum).sum /
      (st.map fun r => (neutronYield r : ℝ) * ((pts L).map fun p =>
        localRate u m method T n r (psi p.1 p.2) * (2 * Real.pi * p.1 * L ^ 2)).sum).sum := by
    have one : ∀ L : ℝ, 0 < L → ∃ (s : Source ℝ) (rings : List (Ring ℝ E)),
      (makeSource u m c tr (fm.view psi) arg L (some P) method = .ok s ∧ s.toOpenmc spectrum = .ok rings) ∧
      openmcMean phi rings = (st.map fun r => (neutronYield r : ℝ) *
        ((pts L).map fun p => localRate u m method T n r (psi p.1 p.2) * (2 * Real.pi * p.1 * L ^ 2) *
          cellMean (phi (sp r (T (psi p.1 p.2)))) L p).sum).sum /
      (st.map fun r => (neutronYield r : ℝ) * ((pts L).map fun p =>
        localRate u m method T n r (psi p.1 p.2) * (2 * Real.pi * p.1 * L ^ 2)).sum).sum := by
      intro L hL
      obtain ⟨s, k, hs, hphys, hty, hk, hx, hz, ht, hcl, hstr⟩ :=
        source_cells hc arg hst hv hp fm hfm psi r0 hr0 hb P hP L hL
      obtain ⟨rings, hrings, hmean⟩ := mean_formula hphys (by rw [hty]; exact hne) spectrum sp phi (pts L)
        (fun p => T (psi p.1 p.2)) L k
        (fun r p => localRate u m method T n r (psi p.1 p.2) * (2 * Real.pi * p.1 * L ^ 2))
        (by rw [hty]; exact fun r hr hy p _ => hsp r hr hy _) hx hz ht hcl hk (by rw [hty]; exact hstr)
      rw [hty] at hmean
      exact ⟨s, rings, ⟨hs, hrings⟩, hmean⟩
    intro L
    by_cases hL : 0 < L
    · obtain ⟨s, rings, h⟩ := one L hL
      exact ⟨s, rings, fun _ => h⟩
    · obtain ⟨s, rings, h⟩ := one 1 one_pos
      exact ⟨s, rings, fun h => absurd h hL⟩
  choose s rings hs using hex
  have hden : plasmaNeutrons u m method T n psi {p | containsPoint fm.lcfs p = true} st (fun _ _ _ => 1) =
      (st.map fun r => (neutronYield r : ℝ) * plasmaRate u m method T n psi {p | containsPoint fm.lcfs p = true} r).sum := by
    unfold plasmaNeutrons plasmaRate
    simp only [one_mul]
  have hpos : 0 < plasmaNeutrons u m method T n psi {p | containsPoint fm.lcfs p = true} st (fun _ _ _ => 1) := by
    rw [hden]
    have h1 : 0 < (neutronYield r0 : ℝ) * plasmaRate u m method T n psi {p | containsPoint fm.lcfs p = true} r0 :=
      mul_pos (by exact_mod_cast hy) (plasmaRate_pos hc.data hv hp fm hfm psi hpsi r0 hr0 hb)
    refine h1.trans_le (List.single_le_sum (fun x hx => ?_) _ (List.mem_map.2 ⟨r0, hr0, rfl⟩))
    obtain ⟨r, hr, rfl⟩ := List.mem_map.1 hx
    exact mul_nonneg (Nat.cast_nonneg _) (plasmaRate_nonneg hc.data hp fm hfm psi r hr)
  refine ⟨s, rings, fun L hL => (hs L hL).1, hpos, ?_⟩
  have hnum : Tendsto (fun L : ℝ => (st.map fun r => (neutronYield r : ℝ) *
        ((pts L).map fun p => localRate u m method T n r (psi p.1 p.2) * (2 * Real.pi * p.1 * L ^ 2) *
          cellMean (phi (sp r (T (psi p.1 p.2)))) L p).sum).sum) (𝓝[>] 0)
      (𝓝 (plasmaNeutrons u m method T n psi {p | containsPoint fm.lcfs p = true} st (fun r t p => phi (sp r t) p))) := by
    unfold plasmaNeutrons
    refine tendsto_listSum st _ _ _ ?_
    intro r hr
    rcases Nat.eq_zero_or_pos (neutronYield r) with h0 | h0
    · simp only [h0, Nat.cast_zero, zero_mul]
      exact tendsto_const_nhds
    · exact tendsto_const_nhds.mul (channel_limit cellMean_average hc.data hv hp fm hfm psi hpsi r hr (fun t p => phi (sp r t) p)
        (hphi r hr h0) _ _)
  have hdenl : Tendsto (fun L : ℝ => (st.map fun r => (neutronYield r : ℝ) * ((pts L).map fun p =>
        localRate u m method T n r (psi p.1 p.2) * (2 * Real.pi * p.1 * L ^ 2)).sum).sum) (𝓝[>] 0)
      (𝓝 (plasmaNeutrons u m method T n psi {p | containsPoint fm.lcfs p = true} st (fun _ _ _ => 1))) := by
    rw [hden]
    refine tendsto_listSum st _ _ _ ?_
    intro r hr
    exact tendsto_const_nhds.mul (rate_limit hc.data hv hp fm psi hpsi r hr _ _)
  refine (hnum.div hdenl hpos.ne').congr' ?_
  filter_upwards [self_mem_nhdsWithin] with L hL
  exact (hs L hL).2.symm

/-- **C96**: let the profiles be continuous, let the fuel of a channel that makes neutrons burn on the magnetic axis, and let
`phi` be any quantity of a neutron that depends continuously on the temperature at which its spectrum is taken and on its
starting point. For every cell size the source is built and exported to OpenMC; and as the cells shrink, the mean of `phi`
over the neutrons that OpenMC samples from the exported sources tends to its mean over the neutrons of the plasma. -/
theorem C96_openmc {c : ℝ} (hc : GoodConstants u m c) (arg : SourceArg)
    (hst : parseSourceType arg = .ok st) (hv : ProfilesAre tr T n)
    (hp : ContinuousPlasma method st T n) (fm : ParamMap) (hfm : PlasmaMap fm) (psi : ℝ → ℝ → ℝ)
    (hpsi : ContinuousOn (fun p : ℝ × ℝ => psi p.1 p.2) {p | containsPoint fm.lcfs p = true})
    (r0 : Reaction) (hr0 : r0 ∈ st) (hy : 0 < neutronYield r0) (hb : Burns tr r0 (psi fm.oPoint.x fm.oPoint.z))
    (P : ℝ) (hP : 0 < P) {E : Type} (spectrum : Reaction → ℝ → Except Err E) (sp : Reaction → ℝ → E)
    (hsp : ∀ r ∈ st, 0 < neutronYield r → ∀ rho, spectrum r (T rho) = .ok (sp r (T rho)))
    (phi : E → ℝ × ℝ → ℝ)
    (hphi : ∀ r ∈ st, 0 < neutronYield r →
      ContinuousOn (fun q : ℝ × ℝ × ℝ => phi (sp r q.1) q.2) (Set.range T ×ˢ Set.univ)) :
    ∃ (s : ℝ → Source ℝ) (rings : ℝ → List (Ring ℝ E)),
      (∀ L > 0, makeSource u m c tr (fm.view psi) arg L (some P) method = .ok (s L) ∧
        (s L).toOpenmc spectrum = .ok (rings L)) ∧
      0 < plasmaNeutrons u m method T n psi {p | containsPoint fm.lcfs p = true} st (fun _ _ _ => 1) ∧
      Tendsto (fun L => openmcMean phi (rings L)) (𝓝[>] 0)
        (𝓝 (plasmaNeutrons u m method T n psi {p | containsPoint fm.lcfs p = true} st (fun r t p => phi (sp r t) p) /
          plasmaNeutrons u m method T n psi {p | containsPoint fm.lcfs p = true} st (fun _ _ _ => 1))) :=
  openmc_of hc arg hst hv hp fm (plasmaMap_roomy hfm) psi hpsi r0 hr0 hy hb P hP spectrum sp hsp phi hphi

theorem spectrum_exists (hT : ∀ rho, 0 < T rho ∧ T rho ≤ 40) (spec : SpectrumMethod) (hspec : spec ≠ .DATA) :
    ∃ sp : Reaction → ℝ → NeutronDist, ∀ r : Reaction, 0 < neutronYield r → ∀ rho,
      neutronEnergySpectrum spec r (T rho) = .ok (sp r (T rho)) := by
  classical
  refine ⟨fun r t => if h : ∃ d, neutronEnergySpectrum spec r t = .ok d then h.choose else .normal 0 1, ?_⟩
  intro r hy rho
  have h : ∃ d, neutronEnergySpectrum spec r (T rho) = .ok d := by
    cases r with
    | n q =>
      obtain ⟨d, hd, -⟩ := C69_distribution q (T rho) (hT rho).1 (hT rho).2 spec (fun e => absurd e hspec)
      exact ⟨d, hd⟩
    | a q => cases q <;> simp [neutronYield] at hy
  simp only
  rw [dif_pos h]
  exact h.choose_spec

theorem positions_of {c : ℝ} (hc : GoodConstants u m c) (arg : SourceArg)
    (hst : parseSourceType arg = .ok st) (hv : ProfilesAre tr T n)
    (hp : ContinuousPlasma method st T n) (hT : ∀ rho, 0 < T rho ∧ T rho ≤ 40) (fm : ParamMap) (hfm : Roomy fm)
    (psi : ℝ → ℝ → ℝ)
    (hpsi : ContinuousOn (fun p : ℝ × ℝ => psi p.1 p.2) {p | containsPoint fm.lcfs p = true})
    (r0 : Reaction) (hr0 : r0 ∈ st) (hy : 0 < neutronYield r0) (hb : Burns tr r0 (psi fm.oPoint.x fm.oPoint.z))
    (P : ℝ) (hP : 0 < P) (spec : SpectrumMethod) (hspec : spec ≠ .DATA) (g : ℝ × ℝ → ℝ) (hg : Continuous g) :
    ∃ (s : ℝ → Source ℝ) (rings : ℝ → List (Ring ℝ NeutronDist)),
      (∀ L > 0, makeSource u m c tr (fm.view psi) arg L (some P) method = .ok (s L) ∧
        (s L).toOpenmcSource spec = .ok (rings L)) ∧
      0 < plasmaNeutrons u m method T n psi {p | containsPoint fm.lcfs p = true} st (fun _ _ _ => 1) ∧
      Tendsto (fun L => openmcMean (fun _ p => g p) (rings L)) (𝓝[>] 0)
        (𝓝 (plasmaNeutrons u m method T n psi {p | containsPoint fm.lcfs p = true} st (fun _ _ p => g p) /
          plasmaNeutrons u m method T n psi {p | containsPoint fm.lcfs p = true} st (fun _ _ _ => 1))) := by
  obtain ⟨sp, hsp⟩ := spectrum_exists hT spec hspec
  exact openmc_of hc arg hst hv hp fm hfm psi hpsi r0 hr0 hy hb P hP (neutronEnergySpectrum spec) sp
    (fun r _ h => hsp r h) (fun _ p => g p) (fun r _ _ => by fun_prop)

/-- **C96**, starting points: for ion temperatures in (0, 40] keV and the energy spectra of the package, the starting points
of the neutrons that OpenMC samples from the exported sources tend, as the cells shrink, to those of the neutrons of the
plasma: the mean of any continuous function of the starting point tends to its mean over the plasma, weighted with the
neutrons emitted there. -/
theorem C96_positions {c : ℝ} (hc : GoodConstants u m c) (arg : SourceArg)
    (hst : parseSourceType arg = .ok st) (hv : ProfilesAre tr T n)
    (hp : ContinuousPlasma method st T n) (hT : ∀ rho, 0 < T rho ∧ T rho ≤ 40) (fm : ParamMap) (hfm : PlasmaMap fm)
    (psi : ℝ → ℝ → ℝ)
    (hpsi : ContinuousOn (fun p : ℝ × ℝ => psi p.1 p.2) {p | containsPoint fm.lcfs p = true})
    (r0 : Reaction) (hr0 : r0 ∈ st) (hy : 0 < neutronYield r0) (hb : Burns tr r0 (psi fm.oPoint.x fm.oPoint.z))
    (P : ℝ) (hP : 0 < P) (spec : SpectrumMethod) (hspec : spec ≠ .DATA) (g : ℝ × ℝ → ℝ) (hg : Continuous g) :
    ∃ (s : ℝ → Source ℝ) (rings : ℝ → List (Ring ℝ NeutronDist)),
      (∀ L > 0, makeSource u m c tr (fm.view psi) arg L (some P) method = .ok (s L) ∧
        (s L).toOpenmcSource spec = .ok (rings L)) ∧
      0 < plasmaNeutrons u m method T n psi {p | containsPoint fm.lcfs p = true} st (fun _ _ _ => 1) ∧
      Tendsto (fun L => openmcMean (fun _ p => g p) (rings L)) (𝓝[>] 0)
        (𝓝 (plasmaNeutrons u m method T n psi {p | containsPoint fm.lcfs p = true} st (fun _ _ p => g p) /
          plasmaNeutrons u m method T n psi {p | containsPoint fm.lcfs p = true} st (fun _ _ _ => 1))) :=
  positions_of hc arg hst hv hp hT fm (plasmaMap_roomy hfm) psi hpsi r0 hr0 hy hb P hP spec hspec g hg

theorem ballabio_continuousOn (q : Neutronic) (hq : q ≠ .T_T) :
    ContinuousOn (specMean q) (Set.Ioc 0 40) ∧ ContinuousOn (specSigma q) (Set.Ioc 0 40) := by
  obtain ⟨b, hb⟩ : ∃ b, (Reaction.n q).ballabio = some b := by
    cases q with
    | D_T => exact ⟨_, rfl⟩
    | D_D => exact ⟨_, rfl⟩
    | T_T => exact absurd rfl hq
  have hfit : ∀ k : BallabioCoefficients, (∀ t ∈ Set.Ioc (0 : ℝ) 40, 1 + k.a2 * t ^ k.a3 ≠ 0) →
      ContinuousOn k.fit (Set.Ioc 0 40) := by
    intro k hk
    have hpow : ∀ e : ℝ, ContinuousOn (fun t : ℝ => t ^ e) (Set.Ioc 0 40) := fun e =>
      continuousOn_id.rpow_const fun t ht => Or.inl ht.1.ne'
    unfold BallabioCoefficients.fit
    exact ((continuousOn_const.div (continuousOn_const.add (continuousOn_const.mul (hpow _))) hk).mul (hpow _)).add
      (continuousOn_const.mul continuousOn_id)
  have hguard := fun t (ht : t ∈ Set.Ioc (0 : ℝ) 40) => ballabio_guard q b hb t ht.1 ht.2
  have h1 := hfit b.shift fun t ht h => hguard t ht (Or.inr (Or.inl h))
  have h2 := hfit b.width fun t ht h => hguard t ht (Or.inr (Or.inr h))
  constructor
  · refine ContinuousOn.congr (f := b.meanEnergy) ?_ fun t ht => (ballabio_moments q b hb t ht.1 ht.2).1.symm
    unfold Ballabio.meanEnergy
    exact continuousOn_const.add h1
  · refine ContinuousOn.congr (f := b.stdDeviation) ?_ fun t ht => (ballabio_moments q b hb t ht.1 ht.2).2.1.symm
    unfold Ballabio.stdDeviation
    exact ((continuousOn_const.mul (continuousOn_const.add h2)).mul Real.continuous_sqrt.continuousOn).div_const _

theorem gaussian_of {c : ℝ} (hc : GoodConstants u m c) (arg : SourceArg)
    (hst : parseSourceType arg = .ok st) (htt : Reaction.n .T_T ∉ st) (hv : ProfilesAre tr T n)
    (hp : ContinuousPlasma method st T n) (hT : ∀ rho, 0 < T rho ∧ T rho ≤ 40) (fm : ParamMap) (hfm : Roomy fm)
    (psi : ℝ → ℝ → ℝ)
    (hpsi : ContinuousOn (fun p : ℝ × ℝ => psi p.1 p.2) {p | containsPoint fm.lcfs p = true})
    (r0 : Reaction) (hr0 : r0 ∈ st) (hy : 0 < neutronYield r0) (hb : Burns tr r0 (psi fm.oPoint.x fm.oPoint.z))
    (P : ℝ) (hP : 0 < P) (F : ℝ → ℝ → ℝ × ℝ → ℝ)
    (hF : ContinuousOn (fun q : ℝ × ℝ × ℝ × ℝ => F q.1 q.2.1 q.2.2) {q | 0 < q.2.1}) :
    ∃ (s : ℝ → Source ℝ) (rings : ℝ → List (Ring ℝ NeutronDist)),
      (∀ L > 0, makeSource u m c tr (fm.view psi) arg L (some P) method = .ok (s L) ∧
        (s L).toOpenmcSource .BALLABIO_GAUSSIAN = .ok (rings L)) ∧
      0 < plasmaNeutrons u m method T n psi {p | containsPoint fm.lcfs p = true} st (fun _ _ _ => 1) ∧
      Tendsto (fun L => openmcMean (ofNormal F) (rings L)) (𝓝[>] 0)
        (𝓝 (plasmaNeutrons u m method T n psi {p | containsPoint fm.lcfs p = true} st (ofPublished F) /
          plasmaNeutrons u m method T n psi {p | containsPoint fm.lcfs p = true} st (fun _ _ _ => 1))) := by
  set sp : Reaction → ℝ → NeutronDist := fun r t =>
    match r with
    | .n q => .normal (1000 * specMean q t) (1000 * specSigma q t)
    | .a _ => .tabular [] with hspd
  have hcase : ∀ r ∈ st, 0 < neutronYield r → ∃ q : Neutronic, r = .n q ∧ q ≠ .T_T := by
    intro r hr h
    cases r with
    | n q => exact ⟨q, rfl, by rintro rfl; exact htt hr⟩
    | a q => cases q <;> simp [neutronYield] at h
  have hval : ∀ r t p, ofNormal F (sp r t) p = ofPublished F r t p := by
    intro r t p
    cases r <;> rfl
  obtain ⟨s, rings, h1, h2, h3⟩ := openmc_of hc arg hst hv hp fm hfm psi hpsi r0 hr0 hy hb P hP
    (neutronEnergySpectrum .BALLABIO_GAUSSIAN) sp (by
      intro r hr h rho
      obtain ⟨q, rfl, hq⟩ := hcase r hr h
      obtain ⟨d, hd, hd'⟩ := C69_distribution q (T rho) (hT rho).1 (hT rho).2 .BALLABIO_GAUSSIAN
        (by intro e; cases e)
      rw [hd]
      cases hd' with
      | normal => rfl
      | modified _ _ hm => exact absurd rfl hm
      | data _ _ hr => exact absurd hr hq) (ofNormal F) (by
      intro r hr h
      obtain ⟨q, rfl, hq⟩ := hcase r hr h
      obtain ⟨hm, hs⟩ := ballabio_continuousOn q hq
      have hmaps : Set.MapsTo (fun x : ℝ × ℝ × ℝ => x.1) (Set.range T ×ˢ Set.univ) (Set.Ioc 0 40) := by
        rintro ⟨t, p⟩ ⟨⟨rho, rfl⟩, -⟩
        exact hT rho
      refine hF.comp (f := fun x : ℝ × ℝ × ℝ => (1000 * specMean q x.1, 1000 * specSigma q x.1, x.2)) ?_ ?_
      · exact (continuousOn_const.mul (hm.comp continuousOn_fst hmaps)).prodMk
          ((continuousOn_const.mul (hs.comp continuousOn_fst hmaps)).prodMk continuousOn_snd)
      · rintro ⟨t, p⟩ ⟨⟨rho, rfl⟩, -⟩
        obtain ⟨d, -, hd'⟩ := C69_distribution q (T rho) (hT rho).1 (hT rho).2 .BALLABIO_GAUSSIAN
          (by intro e; cases e)
        have : 0 < specSigma q (T rho) := by
          cases hd' with
          | normal _ _ h => exact h
          | modified _ _ hm => exact absurd rfl hm
          | data _ _ hr => exact absurd hr hq
        show (0 : ℝ) < 1000 * specSigma q (T rho)
        linarith)
  refine ⟨s, rings, h1, h2, ?_⟩
  simp only [hval] at h3
  exact h3

/-- **C96**, energies: with Gaussian spectra and no T-T channel, the energies too. Any continuous function of the mean and
the standard deviation of the spectrum and of the starting point (so the mean energy, or the share of the neutrons in an
energy window) tends, as the cells shrink, to its mean over the neutrons of the plasma, with the published mean and
standard deviation at the local temperature. -/
theorem C96_gaussian {c : ℝ} (hc : GoodConstants u m c) (arg : SourceArg)
    (hst : parseSourceType arg = .ok st) (htt : Reaction.n .T_T ∉ st) (hv : ProfilesAre tr T n)
    (hp : ContinuousPlasma method st T n) (hT : ∀ rho, 0 < T rho ∧ T rho ≤ 40) (fm : ParamMap) (hfm : PlasmaMap fm)
    (psi : ℝ → ℝ → ℝ)
    (hpsi : ContinuousOn (fun p : ℝ × ℝ => psi p.1 p.2) {p | containsPoint fm.lcfs p = true})
    (r0 : Reaction) (hr0 : r0 ∈ st) (hy : 0 < neutronYield r0) (hb : Burns tr r0 (psi fm.oPoint.x fm.oPoint.z))
    (P : ℝ) (hP : 0 < P) (F : ℝ → ℝ → ℝ × ℝ → ℝ)
    (hF : ContinuousOn (fun q : ℝ × ℝ × ℝ × ℝ => F q.1 q.2.1 q.2.2) {q | 0 < q.2.1}) :
    ∃ (s : ℝ → Source ℝ) (rings : ℝ → List (Ring ℝ NeutronDist)),
      (∀ L > 0, makeSource u m c tr (fm.view psi) arg L (some P) method = .ok (s L) ∧
        (s L).toOpenmcSource .BALLABIO_GAUSSIAN = .ok (rings L)) ∧
      0 < plasmaNeutrons u m method T n psi {p | containsPoint fm.lcfs p = true} st (fun _ _ _ => 1) ∧
      Tendsto (fun L => openmcMean (ofNormal F) (rings L)) (𝓝[>] 0)
        (𝓝 (plasmaNeutrons u m method T n psi {p | containsPoint fm.lcfs p = true} st (ofPublished F) /
          plasmaNeutrons u m method T n psi {p | containsPoint fm.lcfs p = true} st (fun _ _ _ => 1))) :=
  gaussian_of hc arg hst htt hv hp hT fm (plasmaMap_roomy hfm) psi hpsi r0 hr0 hy hb P hP F hF

end limit

/-! ### The hypotheses are met -/

namespace Ex

/-- A 9 m plasma at 2 GW, with any continuous flux: as the cells shrink, the mean radius (m) at which OpenMC starts neutrons
has a limit. -/
example : ∃ fm : ParamMap, PlasmaMap fm ∧ ∀ psi : ℝ → ℝ → ℝ,
    Continuous (fun p : ℝ × ℝ => psi p.1 p.2) → ∃ (s : ℝ → Source ℝ) (rings : ℝ → List (Ring ℝ NeutronDist)) (x : ℝ),
    (∀ L > 0, makeSource si massesR 1.4924180856e-10 plasmaTr (fm.view psi) .none L (some 2e9) .AUTO = .ok (s L) ∧
      (s L).toOpenmcSource .AUTO = .ok (rings L)) ∧
    Tendsto (fun L => openmcMean (fun _ p => p.1) (rings L)) (𝓝[>] 0) (𝓝 x) := by
  obtain ⟨l, hl⟩ := (C39_accepted (9 : ℝ) 0 3 1.7 0.3 0.5 0).2 (by norm_num [abs_of_pos])
  obtain ⟨fm, hfm, -⟩ := C48_labels .fausser l [0, 0.5, 1] 50 (by norm_num) ⟨1, by simp, by norm_num⟩
    .linear
  have hF : PlasmaMap fm :=
    ⟨.fausser, 9, 0, 3, 1.7, 0.3, 0.5, 0, l, [0, 0.5, 1], 50, .linear, .inl rfl, hl, by norm_num, hfm⟩
  refine ⟨fm, hF, fun psi hpsi => ?_⟩
  obtain ⟨s, rings, h1, -, h2⟩ := C96_positions good_constants .none C01_default plasma_values
    plasma_continuous (fun rho => by
      obtain ⟨a, b⟩ := C37_bounds 25 5 0.1 1.5 2 0.9 (by norm_num) (by norm_num) (by norm_num)
        (by norm_num) (by norm_num) (by norm_num) rho
      unfold plasmaT
      constructor
      · norm_num at a ⊢; linarith
      · linarith) fm hF psi hpsi.continuousOn .DT (by simp) (by simp [neutronYield, Reaction.DT]) (plasma_burns _) 2e9
    (by norm_num) .AUTO (by simp) Prod.fst continuous_fst
  exact ⟨s, rings, _, h1, h2⟩

/-- With D-T only and Gaussian spectra: the mean energy (eV) has a limit. -/
example : ∃ fm : ParamMap, PlasmaMap fm ∧ ∀ psi : ℝ → ℝ → ℝ,
    Continuous (fun p : ℝ × ℝ => psi p.1 p.2) → ∃ (s : ℝ → Source ℝ) (rings : ℝ → List (Ring ℝ NeutronDist)) (e : ℝ),
    (∀ L > 0, makeSource si massesR 1.4924180856e-10 plasmaTr (fm.view psi) (.list [.member .DT]) L (some 2e9) .AUTO =
      .ok (s L) ∧ (s L).toOpenmcSource .BALLABIO_GAUSSIAN = .ok (rings L)) ∧
    Tendsto (fun L => openmcMean (ofNormal fun mean _ _ => mean) (rings L)) (𝓝[>] 0) (𝓝 e) := by
  obtain ⟨l, hl⟩ := (C39_accepted (9 : ℝ) 0 3 1.7 0.3 0.5 0).2 (by norm_num [abs_of_pos])
  obtain ⟨fm, hfm, -⟩ := C48_labels .fausser l [0, 0.5, 1] 50 (by norm_num) ⟨1, by simp, by norm_num⟩
    .linear
  have hF : PlasmaMap fm :=
    ⟨.fausser, 9, 0, 3, 1.7, 0.3, 0.5, 0, l, [0, 0.5, 1], 50, .linear, .inl rfl, hl, by norm_num, hfm⟩
  refine ⟨fm, hF, fun psi hpsi => ?_⟩
  have hp : ContinuousPlasma .AUTO [.DT] plasmaT plasmaN :=
    { plasma_continuous with T_good := fun rho r hr => plasma_continuous.T_good rho r (by simp at hr; simp [hr]) }
  obtain ⟨s, rings, h1, -, h2⟩ := C96_gaussian good_constants (.list [.member .DT]) (st := [.DT]) (by
      change Except.ok (finishSourceType [.DT]) = _
      rw [finish_eq_filter]; decide) (by simp [Reaction.DT]) plasma_values
    hp (fun rho => by
      obtain ⟨a, b⟩ := C37_bounds 25 5 0.1 1.5 2 0.9 (by norm_num) (by norm_num) (by norm_num)
        (by norm_num) (by norm_num) (by norm_num) rho
      unfold plasmaT
      constructor
      · norm_num at a ⊢; linarith
      · linarith) fm hF psi hpsi.continuousOn .DT (by simp) (by simp [neutronYield, Reaction.DT]) (plasma_burns _) 2e9
    (by norm_num) (fun mean _ _ => mean) (by fun_prop)
  exact ⟨s, rings, _, h1, h2⟩

end Ex

end
end TNS
