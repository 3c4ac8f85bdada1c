import Verif.Spec.RoundedExport
import Verif.Props.RoundedXsSource
import Verif.Props.RoundedOpenMC
import Verif.Props.RoundedSdef
/-
C95: from the plasma to the Monte Carlo input in floating point.
-/

set_option autoImplicit false

namespace TNS
open Spec
noncomputable section

theorem unscaled_wise (A : Arith) (pi : ℝ) (pts : List (ℝ × ℝ)) (oX oZ L : ℝ) (st : List Reaction)
    (temp d t h : List ℝ) (sv : Reaction → List ℝ) (hst : st.Nodup) :
    (unscaled A pi pts oX oZ L st temp d t h sv).x = (samplePointsR A pts oX oZ L).map Prod.fst ∧
    (unscaled A pi pts oX oZ L st temp d t h sv).z = (samplePointsR A pts oX oZ L).map Prod.snd ∧
    (unscaled A pi pts oX oZ L st temp d t h sv).temperature = temp ∧
    (unscaled A pi pts oX oZ L st temp d t h sv).cellSideLength = L := by
  unfold unscaled Source.initR
  rw [foldl_addReactionR A d t h sv st hst _ (by simp [Dict.keys]) (by simp [Dict.keys]) (by simp [Dict.keys])]
  exact ⟨rfl, rfl, rfl, rfl⟩

theorem normaliseR_wise {A : Arith} {Q : Reaction → ℝ} {P : ℝ} {s s' : Source ℝ} (h : s.normaliseR A Q P = .ok s') :
    s'.x = s.x ∧ s'.z = s.z ∧ s'.temperature = s.temperature ∧ s'.cellSideLength = s.cellSideLength := by
  unfold Source.normaliseR at h
  split_ifs at h with c1 c2
  cases h
  rw [foldl_scaleReactionR]
  exact ⟨rfl, rfl, rfl, rfl⟩

/-- The arrays of a source made by the constructor. -/
theorem makeR_wise {A : Arith} {F : MathLib} {xs : Reaction → List ℝ → Except Err (List ℝ)} {pi : ℝ}
    {Q : Reaction → ℝ} {pts : List (ℝ × ℝ)} {oX oZ : ℝ} {psi : ℝ → ℝ → ℝ} {tr : TransportView ℝ}
    {arg : SourceArg} {L : ℝ} {power : Option ℝ} {method : ReactivityMethod} {s : Source ℝ}
    (hs : Source.makeR A F xs pi Q pts oX oZ psi tr arg L power method = .ok s) :
    s.x = (centres s).map Prod.fst ∧ s.z = (centres s).map Prod.snd ∧
    s.temperature = (centres s).map (temperatureAt tr psi) ∧ s.cellSideLength = L ∧
    cells s = (centres s).length := by
  obtain ⟨-, hc⟩ := C93_cells hs
  obtain ⟨st, temp, d, t, h, sv, hm, H⟩ := makeR_ok_iff.1 hs
  obtain ⟨f1, f2, f3, f4⟩ := unscaled_wise A pi pts oX oZ L st temp d t h sv (parse_nodup hm.parse)
  obtain ⟨-, -, f5⟩ := unscaled_fields A pi pts oX oZ L st temp d t h sv (parse_nodup hm.parse)
  rw [hc]
  have f3 := f3.trans (made_lists hm).1
  cases power with
  | none => simp only at H; subst H; exact ⟨f1, f2, f3, f4, f5⟩
  | some P =>
    obtain ⟨g1, g2, g3, g4⟩ := normaliseR_wise H
    obtain ⟨-, -, g5⟩ := normaliseR_fields H
    exact ⟨g1.trans f1, g2.trans f2, g3.trans f3, g4.trans f4, g5.trans f5⟩

theorem ratio_close {a b x y δ : ℝ} (hx : 0 ≤ x) (hy : 0 < y) (h0 : 0 ≤ δ) (h1 : δ ≤ 1 / 500)
    (ha : |a - x| ≤ δ * x) (hb : |b - y| ≤ δ * y) : |a / b - x / y| ≤ 2.01 * δ * (x / y) := by
  have hb1 := (abs_le.1 hb).1
  have hbp : 0 < b := by nlinarith
  have e : a / b - x / y = ((a - x) - (x / y) * (b - y)) / b := by field_simp; ring
  rw [e, abs_div, abs_of_pos hbp, div_le_iff₀ hbp]
  have hq : 0 ≤ x / y := div_nonneg hx hy.le
  have h2 : |(x / y) * (b - y)| ≤ δ * x := by
    rw [abs_mul, abs_of_nonneg hq]
    have := mul_le_mul_of_nonneg_left hb hq
    calc _ ≤ _ := this
      _ = δ * x := by field_simp
  have h3 := abs_sub (a - x) ((x / y) * (b - y))
  have h4 : x / y * (y * (1 - δ)) ≤ x / y * b := mul_le_mul_of_nonneg_left (by linarith) hq
  have h5 : x / y * (y * (1 - δ)) = x * (1 - δ) := by field_simp
  have h6 : 0 ≤ δ * x := mul_nonneg h0 hx
  have h7 : 2.01 * δ * (x * (1 - δ)) ≤ 2.01 * δ * (x / y * b) := mul_le_mul_of_nonneg_left (h5 ▸ h4) (by linarith)
  have h8 : δ * (δ * x) ≤ 1 / 500 * (δ * x) := mul_le_mul_of_nonneg_right h1 h6
  nlinarith

theorem ratio_trans {c a x ε δ : ℝ} (hx : 0 ≤ x) (hε : 0 ≤ ε) (hδ : 0 ≤ δ) (hδ1 : δ ≤ 1 / 500) (hεδ : ε ≤ 4 / 3 * δ)
    (h1 : |c - a| ≤ ε * a) (h2 : |a - x| ≤ 2.01 * δ * x) : |c - x| ≤ 3.5 * δ * x := by
  have h3 := abs_sub_le c a x
  have h4 := (abs_le.1 h2).2
  have h5 : ε * a ≤ ε * (1.01 * x) := mul_le_mul_of_nonneg_left (by nlinarith) hε
  have h6 : ε * (1.01 * x) ≤ 4 / 3 * δ * (1.01 * x) := mul_le_mul_of_nonneg_right hεδ (by linarith)
  nlinarith [mul_nonneg hδ hx]

/-- Weighted sums of close numbers are close. -/
theorem list_sum_close {α : Type} (l : List α) (f g : α → ℝ) (δ : ℝ) (h : ∀ a ∈ l, |f a - g a| ≤ δ * g a) :
    |(l.map f).sum - (l.map g).sum| ≤ δ * (l.map g).sum := by
  induction l with
  | nil => simp
  | cons a l ih =>
    simp only [List.map_cons, List.sum_cons]
    have h1 := h a (by simp)
    have h2 := ih fun b hb => h b (List.mem_cons_of_mem _ hb)
    calc _ = |(f a - g a) + ((l.map f).sum - (l.map g).sum)| := by congr 1; ring
      _ ≤ _ := abs_add_le _ _
      _ ≤ _ := by linarith

theorem pos_iff_close {a x δ : ℝ} (hx : 0 ≤ x) (hδ : δ ≤ 1 / 500) (h : |a - x| ≤ δ * x) : 0 < a ↔ 0 < x := by
  have := abs_le.1 h
  constructor
  · intro ha
    rcases hx.lt_or_eq with h | h
    · exact h
    · rw [← h] at this; simp at this; linarith [this.2]
  · intro ha
    nlinarith [this.1]

theorem filter_index {α : Type} [Inhabited α] (l : List α) (P : α → Bool) (q : ℕ → Bool)
    (h : ∀ (i : ℕ) (hi : i < l.length), q i = P l[i]) :
    l.filter P = ((List.range l.length).filter q).map fun i => l.getD i default := by
  have e : l = (List.range l.length).map fun i => l.getD i default := by
    refine List.ext_getElem (by simp) ?_
    intro i h1 h2
    simp [h1]
  conv_lhs => rw [e]
  rw [List.filter_map]
  congr 1
  refine List.filter_congr ?_
  intro i hi
  have hi := List.mem_range.1 hi
  simp [h i hi, hi]

section
variable {A : Arith} {u : ℝ} (hA : StandardModel A u)
  {F : MathLib} {xs : Reaction → List ℝ → Except Err (List ℝ)} {pi : ℝ} (hpi : |pi - Real.pi| ≤ u * Real.pi)
  {Q : Reaction → ℝ} (hQ : ∀ r, 0 < Q r)
  {pts : List (ℝ × ℝ)} {oX oZ : ℝ} {psi : ℝ → ℝ → ℝ} {tr : TransportView ℝ}
  {arg : SourceArg} {L : ℝ} {method : ReactivityMethod} {s : Source ℝ}
  {ref : Reaction → ℝ → ℝ} {e : ℝ} (he : 0 ≤ e)
  (hacc : ∀ r ∈ s.sourceType, AccurateReactivity (reactivityR A F xs method) ref e r)
  (hok : PlasmaOK tr psi (centres s)) {P : ℝ} (hP : 0 < P)
  (hs : Source.makeR A F xs pi Q pts oX oZ psi tr arg L (some P) method = .ok s)
  (hsmall : 2.3 * e + 3 * ((cells s : ℝ) + s.sourceType.length + 14) * u ≤ 1 / 500)

omit hA hpi hQ he hacc hok hP hs hsmall in
/-- What the exports need to know of a constructed source. -/
structure ExportReady (A : Arith) (Q : Reaction → ℝ) (tr : TransportView ℝ) (psi : ℝ → ℝ → ℝ) (L : ℝ)
    (ref : Reaction → ℝ → ℝ) (s : Source ℝ) (δ k : ℝ) : Prop where
  reach : ReachableR A Q 1 s
  wise : CellWise s
  len : s.x.length = (centres s).length
  cells : cells s = (centres s).length
  side : s.cellSideLength = L
  temp : s.temperature = (centres s).map (temperatureAt tr psi)
  k_pos : 0 < k
  rate : ∀ p ∈ centres s, ∀ r ∈ s.sourceType, 0 ≤ cellRate ref tr psi L r p
  close : ∀ r ∈ s.sourceType, ∀ (i : ℕ) (hi : i < (centres s).length),
    |cellStrength s r i - k * cellRate ref tr psi L r (centres s)[i]| ≤ δ * (k * cellRate ref tr psi L r (centres s)[i])
  list : ∀ r ∈ s.sourceType, List.Forall₂
    (fun a p => |a - k * cellRate ref tr psi L r p| ≤ δ * (k * cellRate ref tr psi L r p)) (strengths s r) (centres s)

include hA hpi hQ he hacc hok hP hs hsmall in
theorem makeR_ready : ExportReady A Q tr psi L ref s (2.3 * e + 3 * ((cells s : ℝ) + s.sourceType.length + 14) * u)
    (P / cellsPower ref Q tr psi L (centres s) s.sourceType) := by
  have hu0 := hA.u_nonneg
  obtain ⟨hT, hstr⟩ := C93_strengths hA hpi hQ he hacc hok hP hs hsmall
  obtain ⟨w1, w2, w3, w4, w5⟩ := makeR_wise hs
  have hl : s.x.length = (centres s).length := by rw [w1, List.length_map]
  have hz : s.z.length = (centres s).length := by rw [w2, List.length_map]
  have hN : (0 : ℝ) ≤ cells s := Nat.cast_nonneg _
  have hM : (0 : ℝ) ≤ s.sourceType.length := Nat.cast_nonneg _
  have hNu : 0 ≤ (cells s : ℝ) * u := mul_nonneg hN hu0
  have hMu : 0 ≤ (s.sourceType.length : ℝ) * u := mul_nonneg hM hu0
  have hu : u ≤ 1 / 10000 := by nlinarith
  have he1 : e ≤ 1 / 1000 := by nlinarith
  set T := cellsPower ref Q tr psi L (centres s) s.sourceType with hTdef
  have hlist : ∀ r ∈ s.sourceType, List.Forall₂
    (fun a p => |a - P / T * cellRate ref tr psi L r p| ≤ (2.3 * e + 3 * ((cells s : ℝ) + s.sourceType.length + 14) * u) *
      (P / T * cellRate ref tr psi L r p)) (strengths s r) (centres s) := by
    intro r hr
    refine (hstr r hr).imp ?_
    intro a p h
    rwa [mul_div_right_comm] at h
  refine ⟨?_, ⟨hz.trans hl.symm, by rw [w3, List.length_map, hl], by rw [hl, ← w5]; rfl, ?_⟩, hl, w5, w4, w3,
    div_pos hP hT, ?_, ?_, hlist⟩
  · obtain ⟨st, temp, d, t, h, sv, hm, H⟩ := makeR_ok_iff.1 hs
    simp only at H
    obtain ⟨f1, f2, f3⟩ := unscaled_fields A pi pts oX oZ L st temp d t h sv (parse_nodup hm.parse)
    obtain ⟨g1, g2, g3⟩ := normaliseR_fields H
    rw [f1] at g1
    rw [f2] at g2
    exact ReachableR.normalised
      (made_reachable hA (by linarith) hpi hm he1 (g1 ▸ hacc) (g2 ▸ hok) Q) hP H
  · intro r hr
    rw [(hlist r hr).length_eq, hl]
  · intro p hp r hr
    obtain ⟨p1, p2, p3, p4⟩ := hok p hp
    have := Real.pi_pos
    exact mul_nonneg (rateDensity_nonneg' _ p2 _ ((hacc r hr).pos _ p3 p4).le r) (by positivity)
  · intro r hr i hi
    have h := hlist r hr
    have hi' : i < (strengths s r).length := by rw [h.length_eq]; exact hi
    have := (List.forall₂_iff_get.1 h).2 i hi' hi
    simp only [List.get_eq_getElem] at this
    have ec : cellStrength s r i = (strengths s r)[i] := by
      change ((strengths s r)[i]?).getD 0 = _
      rw [List.getElem?_eq_getElem hi']; rfl
    rw [ec]
    exact this

end

section
variable {A : Arith} {Q : Reaction → ℝ} {tr : TransportView ℝ} {psi : ℝ → ℝ → ℝ} {L : ℝ}
    {ref : Reaction → ℝ → ℝ} {s : Source ℝ} {δ k : ℝ} (hr : ExportReady A Q tr psi L ref s δ k)
    (h0 : 0 ≤ δ) (h1 : δ ≤ 1 / 500)

include hr in
theorem ready_channel {r : Reaction} (hm : r ∈ s.sourceType) (i : ℕ) (hi : i < (centres s).length) :
    0 ≤ k * channelNeutrons ref tr psi L r (centres s)[i] ∧
    |(neutronYield r : ℝ) * cellStrength s r i - k * channelNeutrons ref tr psi L r (centres s)[i]| ≤
      δ * (k * channelNeutrons ref tr psi L r (centres s)[i]) := by
  have h := hr.close r hm i hi
  have hn := hr.rate _ (List.getElem_mem hi) r hm
  have hy : (0 : ℝ) ≤ neutronYield r := Nat.cast_nonneg _
  unfold channelNeutrons
  refine ⟨mul_nonneg hr.k_pos.le (mul_nonneg hy hn), ?_⟩
  have e : (neutronYield r : ℝ) * cellStrength s r i - k * (neutronYield r * cellRate ref tr psi L r (centres s)[i]) =
      neutronYield r * (cellStrength s r i - k * cellRate ref tr psi L r (centres s)[i]) := by ring
  rw [e, abs_mul, abs_of_nonneg hy]
  have := mul_le_mul_of_nonneg_left h hy
  linarith

include hr in
theorem ready_emission (i : ℕ) (hi : i < (centres s).length) :
    0 ≤ neutronRate ref tr psi L s.sourceType (centres s)[i] ∧
    |emission s i - k * neutronRate ref tr psi L s.sourceType (centres s)[i]| ≤
      δ * (k * neutronRate ref tr psi L s.sourceType (centres s)[i]) := by
  have key : k * neutronRate ref tr psi L s.sourceType (centres s)[i] =
      (s.sourceType.map fun r => k * channelNeutrons ref tr psi L r (centres s)[i]).sum := by
    rw [List.sum_map_mul_left]; rfl
  constructor
  · refine List.sum_nonneg ?_
    intro a ha
    obtain ⟨r, hm, rfl⟩ := List.mem_map.1 ha
    have := (ready_channel hr hm i hi).1
    exact nonneg_of_mul_nonneg_right this hr.k_pos
  · rw [key]
    exact list_sum_close _ _ _ δ fun r hm => (ready_channel hr hm i hi).2

include hr in
theorem ready_total :
    |totalEmission s - k * ((centres s).map (neutronRate ref tr psi L s.sourceType)).sum| ≤
      δ * (k * ((centres s).map (neutronRate ref tr psi L s.sourceType)).sum) := by
  have e : (centres s).map (neutronRate ref tr psi L s.sourceType) =
      (List.range s.x.length).map fun i => neutronRate ref tr psi L s.sourceType ((centres s).getD i default) := by
    rw [hr.len]
    refine List.ext_getElem (by simp) ?_
    intro i h1 h2
    simp at h1
    simp [h1]
  rw [e, ← List.sum_map_mul_left]
  refine list_sum_close _ _ _ δ ?_
  intro i hi
  have hi := List.mem_range.1 hi
  rw [hr.len] at hi
  have eg : (centres s).getD i default = (centres s)[i] := by simp [hi]
  rw [eg]
  exact (ready_emission hr i hi).2

include hr h1 in
theorem ready_emitting :
    (centres s).filter (fun p => decide (0 < neutronRate ref tr psi L s.sourceType p)) =
      (emitting s).map fun i => (centres s).getD i default := by
  unfold emitting
  rw [hr.len]
  refine filter_index _ _ _ ?_
  intro i hi
  obtain ⟨n1, n2⟩ := ready_emission hr i hi
  have := pos_iff_close (mul_nonneg hr.k_pos.le n1) h1 n2
  rw [mul_pos_iff_of_pos_left hr.k_pos] at this
  simp [this]

include hr h0 h1 in
/-- A ring that is right for the source is right for the plasma. -/
theorem ready_ring {E : Type} {spectrum : Reaction → ℝ → Except Err E} {ε u : ℝ} (hε : 0 ≤ ε) (hεδ : ε ≤ 4 / 3 * δ)
    (huδ : 4 * u ≤ δ) (hL : 0 ≤ L)
    (hpos : 0 < ((centres s).map (neutronRate ref tr psi L s.sourceType)).sum) {ring : Ring ℝ E} (i : ℕ)
    (hi : i ∈ emitting s) (ha : RingAccurate spectrum s ε i ring) (hx : ExtentAccurate s (4 * u) i ring) :
    RingIdeal spectrum ref tr psi L s.sourceType (centres s) (3.5 * δ) ((centres s).getD i default) ring := by
  obtain ⟨hi1, hi2⟩ := List.mem_filter.1 hi
  have hi' := List.mem_range.1 hi1
  rw [hr.len] at hi'
  have hem : 0 < emission s i := by simpa using hi2
  have eg : (centres s).getD i default = (centres s)[i] := by simp [hi']
  rw [eg]
  obtain ⟨n1, n2⟩ := ready_emission hr i hi'
  have hk := hr.k_pos
  have hn : 0 < neutronRate ref tr psi L s.sourceType (centres s)[i] := by
    have := (pos_iff_close (mul_nonneg hk.le n1) h1 n2).1 hem
    rwa [mul_pos_iff_of_pos_left hk] at this
  have cancel : ∀ a b : ℝ, k * a / (k * b) = a / b := fun a b => mul_div_mul_left a b hk.ne'
  refine ⟨?_, ?_, ?_, ?_, ?_⟩
  · obtain ⟨σ, hσ, hc⟩ := ha.strength
    refine ⟨σ, hσ, ?_⟩
    have := ratio_close (mul_nonneg hk.le n1) (mul_pos hk hpos) h0 h1 n2 (ready_total hr)
    rw [cancel] at this
    exact ratio_trans (div_nonneg n1 hpos.le) hε h0 h1 hεδ hc this
  · have hf : (s.sourceType.filter fun r => decide (0 < channelNeutrons ref tr psi L r (centres s)[i])) =
        s.sourceType.filter fun r => decide (0 < (neutronYield r : ℝ) * cellStrength s r i) := by
      refine List.filter_congr ?_
      intro r hm
      obtain ⟨c1, c2⟩ := ready_channel hr hm i hi'
      have := pos_iff_close c1 h1 c2
      rw [mul_pos_iff_of_pos_left hk] at this
      simp only [decide_eq_decide]
      exact this.symm
    rw [hf]
    have hen := ha.energy
    rw [List.forall₂_iff_get] at hen ⊢
    refine ⟨hen.1, fun j j1 j2 => ?_⟩
    obtain ⟨q1, t, q2, q3⟩ := hen.2 j j1 j2
    generalize hg : (s.sourceType.filter fun r => decide (0 < (neutronYield r : ℝ) * cellStrength s r i)).get ⟨j, j1⟩ = r at *
    have hm : r ∈ s.sourceType := by
      rw [← hg]; exact List.mem_of_mem_filter (List.get_mem _ _)
    obtain ⟨c1, c2⟩ := ready_channel hr hm i hi'
    constructor
    · have := ratio_close c1 (mul_pos hk hn) h0 h1 c2 n2
      rw [cancel] at this
      refine ratio_trans (div_nonneg ?_ n1) hε h0 h1 hεδ q1 this
      exact nonneg_of_mul_nonneg_right c1 hk
    · rw [hr.temp, List.getElem?_map, List.getElem?_eq_getElem hi'] at q2
      simp only [Option.map_some, Option.some.injEq] at q2
      rw [q2]
      exact q3
  · exact ha.weights.trans (by linarith)
  · obtain ⟨x, z, e1, e2, b1, b2, b3, b4⟩ := hx.extent
    rw [hr.side] at b1 b2 b3 b4
    have ex : x = (centres s)[i].1 ∧ z = (centres s)[i].2 := by
      have : (centres s)[i]? = some (x, z) := by
        unfold centres
        rw [List.getElem?_zip_eq_some]
        exact ⟨e1, e2⟩
      rw [List.getElem?_eq_getElem hi'] at this
      have := Option.some.inj this
      rw [this]
      exact ⟨rfl, rfl⟩
    rw [ex.1] at b1 b2
    rw [ex.2] at b3 b4
    have m : ∀ y : ℝ, 4 * u * (100 * (|y| + L)) ≤ 3.5 * δ * (100 * (|y| + L)) := fun y =>
      mul_le_mul_of_nonneg_right (by linarith) (by positivity)
    exact ⟨b1.trans (m _), b2.trans (m _), b3.trans (m _), b4.trans (m _)⟩
  · intro d1 d2
    obtain ⟨q1, q2⟩ := hx.density d1 d2
    have m : ∀ y : ℝ, 0 ≤ y → 4 * u * y ≤ 3.5 * δ * y := fun y hy => mul_le_mul_of_nonneg_right (by linarith) hy
    exact ⟨q1.trans (m _ (by positivity)), q2.trans (m _ (by positivity))⟩

end

section
variable {A : Arith} {u : ℝ} (hA : StandardModel A u)
  {F : MathLib} {xs : Reaction → List ℝ → Except Err (List ℝ)} {pi : ℝ} (hpi : |pi - Real.pi| ≤ u * Real.pi)
  {Q : Reaction → ℝ} (hQ : ∀ r, 0 < Q r)
  {pts : List (ℝ × ℝ)} {oX oZ : ℝ} {psi : ℝ → ℝ → ℝ} {tr : TransportView ℝ}
  {arg : SourceArg} {L : ℝ} {method : ReactivityMethod} {s : Source ℝ}
  {ref : Reaction → ℝ → ℝ} {e : ℝ} (he : 0 ≤ e)
  (hacc : ∀ r ∈ s.sourceType, AccurateReactivity (reactivityR A F xs method) ref e r)
  (hok : PlasmaOK tr psi (centres s)) {P : ℝ} (hP : 0 < P)
  (hs : Source.makeR A F xs pi Q pts oX oZ psi tr arg L (some P) method = .ok s)
  (hsmall : 2.3 * e + 3 * ((cells s : ℝ) + s.sourceType.length + 14) * u ≤ 1 / 500)

include hA hpi hQ he hacc hok hP hs hsmall in
/-- C95.  From the plasma to OpenMC in floating point: constructing a source normalised to any power and exporting it gives
exactly one source for each cell in which the plasma gives neutrons, in the order of the cells, and its strength, spectra,
weights and extent are those of the plasma with a relative error of at most
`3.5 (2.3 e + 3 (cells + channels + 14) u)`; nothing depends on the power. -/
theorem C95_openmc (hL : 0 ≤ L) (hpos : 0 < ((centres s).map (neutronRate ref tr psi L s.sourceType)).sum)
    {E : Type} (spectrum : Reaction → ℝ → Except Err E) (rings : List (Ring ℝ E))
    (h : s.toOpenmcR A spectrum = .ok rings) :
    List.Forall₂ (RingIdeal spectrum ref tr psi L s.sourceType (centres s)
        (3.5 * (2.3 * e + 3 * ((cells s : ℝ) + s.sourceType.length + 14) * u)))
      ((centres s).filter fun p => decide (0 < neutronRate ref tr psi L s.sourceType p)) rings := by
  have hr := makeR_ready hA hpi hQ he hacc hok hP hs hsmall
  have hu0 := hA.u_nonneg
  have hN : (0 : ℝ) ≤ cells s := Nat.cast_nonneg _
  have hM : (0 : ℝ) ≤ s.sourceType.length := Nat.cast_nonneg _
  have hNu : 0 ≤ (cells s : ℝ) * u := mul_nonneg hN hu0
  have hMu : 0 ≤ (s.sourceType.length : ℝ) * u := mul_nonneg hM hu0
  set δ := 2.3 * e + 3 * ((cells s : ℝ) + s.sourceType.length + 14) * u with hδ
  have h0 : 0 ≤ δ := by rw [hδ]; positivity
  have hk := hr.k_pos
  have htot : 0 < totalEmission s :=
    (pos_iff_close (mul_pos hk hpos).le hsmall (ready_total hr)).2 (mul_pos hk hpos)
  have a1 := C87_rings hA hQ hr.reach hr.wise htot (by push_cast; linarith) spectrum rings h
  have a2 := C87_extent hA (by linarith) hQ hr.reach hr.wise htot (by rw [hr.side]; exact hL) spectrum rings h
  rw [ready_emitting hr hsmall, List.forall₂_map_left_iff]
  rw [List.forall₂_iff_get] at a1 a2 ⊢
  refine ⟨a1.1, fun i i1 i2 => ?_⟩
  refine ready_ring hr h0 hsmall (u := u) (by positivity) ?_ (by linarith) hL hpos _ (List.get_mem _ _) (a1.2 i i1 i2)
    (a2.2 i i1 i2)
  push_cast
  linarith

include hA hpi hQ he hacc hok hP hs hsmall in
/-- C95.  The export succeeds if every reaction that gives neutrons has a spectrum at every temperature of the plasma. -/
theorem C95_succeeds (hpos : 0 < ((centres s).map (neutronRate ref tr psi L s.sourceType)).sum)
    {E : Type} (spectrum : Reaction → ℝ → Except Err E) (sp : Reaction → ℝ → E)
    (hsp : ∀ r ∈ s.sourceType, 0 < neutronYield r → ∀ p ∈ centres s,
      spectrum r (temperatureAt tr psi p) = .ok (sp r (temperatureAt tr psi p))) :
    ∃ rings, s.toOpenmcR A spectrum = .ok rings := by
  have hr := makeR_ready hA hpi hQ he hacc hok hP hs hsmall
  have hk := hr.k_pos
  have htot : 0 < totalEmission s :=
    (pos_iff_close (mul_pos hk hpos).le hsmall (ready_total hr)).2 (mul_pos hk hpos)
  refine C87_succeeds hA hQ hr.reach hr.wise htot spectrum sp ?_
  intro r hm hy t ht
  rw [hr.temp] at ht
  obtain ⟨p, hp, rfl⟩ := List.mem_map.1 ht
  exact hsp r hm hy p hp

include hA hpi hQ he hacc hok hP hs in
/-- C95.  From the plasma to the SDEF files in floating point.  There is one file for each reaction with neutrons, in the
order of the source type.  For every file with a reaction that occurs: the total of its header is the reaction rate of the
plasma at the power `P`, its ion temperature is the mean over the plasma weighted by the reaction rate, and the text,
read back by MCNP's rules, has one bin for each cell, in order, with the edges of the cell to five digits and the share of the
cell in the reactions of the plasma, with a relative error of at most 22 parts per million. -/
theorem C95_sdef {M : ℝ} (hres : Resolved A u pts oX oZ L M) (hu : u ≤ 1 / 10 ^ 9)
    (hsmall : 2.3 * e + 3 * ((cells s : ℝ) + s.sourceType.length + 14) * u ≤ 1 / 10 ^ 7)
    (hfar : ∀ p ∈ centres s, |p.1| + L ≤ 40000 * L ∧ |p.2| + L ≤ 40000 * L) (hne : centres s ≠ [])
    (stub : String) :
    ∃ files, s.toSdefR A stub = .ok files ∧
      files.map SdefFile.reaction = s.sourceType.filter (fun r => decide (0 < neutronYield r)) ∧
      ∀ f ∈ files, f.name = sdefFileName stub f.reaction ∧
        (0 < channelRate ref tr psi L (centres s) f.reaction →
          RelClose (3.5 * (2.3 * e + 3 * ((cells s : ℝ) + s.sourceType.length + 14) * u)) f.total
            (P * channelRate ref tr psi L (centres s) f.reaction /
              cellsPower ref Q tr psi L (centres s) s.sourceType) ∧
          (∃ T, f.ionTemp = .fin T ∧
            RelClose (3.5 * (2.3 * e + 3 * ((cells s : ℝ) + s.sourceType.length + 14) * u)) T
              (((centres s).map fun p => cellRate ref tr psi L f.reaction p * temperatureAt tr psi p).sum /
                channelRate ref tr psi L (centres s) f.reaction)) ∧
          ∀ (r : Neutronic) (cit : Citation), CleanCitation cit → Printable f.cards →
            ∃ text c, sdefText cit r f = .ok text ∧ readSdef (readCards 128 text) = some c ∧
              List.Forall₂ (fun p b => BinIdeal L (centres s)
                  (cellRate ref tr psi L f.reaction p / channelRate ref tr psi L (centres s) f.reaction) p b)
                (centres s) (sdefBins c)) := by
  have hsm : 2.3 * e + 3 * ((cells s : ℝ) + s.sourceType.length + 14) * u ≤ 1 / 500 := hsmall.trans (by norm_num)
  have hr := makeR_ready hA hpi hQ he hacc hok hP hs hsm
  obtain ⟨w1, w2, w3, w4, w5⟩ := makeR_wise hs
  have hu0 := hA.u_nonneg
  have hN : (0 : ℝ) ≤ cells s := Nat.cast_nonneg _
  have hM : (0 : ℝ) ≤ s.sourceType.length := Nat.cast_nonneg _
  have hNu : 0 ≤ (cells s : ℝ) * u := mul_nonneg hN hu0
  have hMu : 0 ≤ (s.sourceType.length : ℝ) * u := mul_nonneg hM hu0
  set δ := 2.3 * e + 3 * ((cells s : ℝ) + s.sourceType.length + 14) * u with hδ
  have h0 : 0 ≤ δ := by rw [hδ]; positivity
  have hk := hr.k_pos
  set T0 := cellsPower ref Q tr psi L (centres s) s.sourceType with hT0
  have hxne : s.x ≠ [] := by
    rw [w1]; simpa using hne
  obtain ⟨files, hf, hf1, hf2⟩ := C89_files hA hQ hr.reach hxne stub
  refine ⟨files, hf, hf1, fun f hfm => ⟨hf2 f hfm, fun hch => ?_⟩⟩
  have hm : f.reaction ∈ s.sourceType := by
    have : f.reaction ∈ files.map SdefFile.reaction := List.mem_map_of_mem hfm
    rw [hf1] at this
    exact List.mem_of_mem_filter this
  have hlist := hr.list _ hm
  have hWn : ∀ p ∈ centres s, 0 ≤ cellRate ref tr psi L f.reaction p := fun p hp => hr.rate p hp _ hm
  -- sums of strengths against sums of rates, weighted
  have key : ∀ (g : ℝ × ℝ → ℝ) (l : List ℝ) (cs : List (ℝ × ℝ)), (∀ p ∈ cs, 0 ≤ g p) →
      List.Forall₂ (fun a p => |a - P / T0 * cellRate ref tr psi L f.reaction p| ≤
        δ * (P / T0 * cellRate ref tr psi L f.reaction p)) l cs →
      |(List.zipWith (· * ·) l (cs.map g)).sum - P / T0 * (cs.map fun p => cellRate ref tr psi L f.reaction p * g p).sum| ≤
        δ * (P / T0 * (cs.map fun p => cellRate ref tr psi L f.reaction p * g p).sum) := by
    intro g l cs hg h
    induction h with
    | nil => simp
    | @cons a p l cs h1 _ ih =>
      simp only [List.map_cons, List.zipWith_cons_cons, List.sum_cons]
      have i1 := ih fun q hq => hg q (List.mem_cons_of_mem _ hq)
      have g0 := hg p (by simp)
      have i2 : |a * g p - P / T0 * (cellRate ref tr psi L f.reaction p * g p)| ≤
          δ * (P / T0 * (cellRate ref tr psi L f.reaction p * g p)) := by
        have : a * g p - P / T0 * (cellRate ref tr psi L f.reaction p * g p) =
          (a - P / T0 * cellRate ref tr psi L f.reaction p) * g p := by ring
        rw [this, abs_mul, abs_of_nonneg g0]
        have := mul_le_mul_of_nonneg_right h1 g0
        linarith
      have i3 := abs_add_le (a * g p - P / T0 * (cellRate ref tr psi L f.reaction p * g p))
        ((List.zipWith (· * ·) l (cs.map g)).sum - P / T0 * (cs.map fun p => cellRate ref tr psi L f.reaction p * g p).sum)
      calc _ = |(a * g p - P / T0 * (cellRate ref tr psi L f.reaction p * g p)) +
        ((List.zipWith (· * ·) l (cs.map g)).sum - P / T0 * (cs.map fun p => cellRate ref tr psi L f.reaction p * g p).sum)| := by
            congr 1; ring
        _ ≤ _ := i3
        _ ≤ _ := by linarith
  have hsum : |(strengths s f.reaction).sum - P / T0 * channelRate ref tr psi L (centres s) f.reaction| ≤
      δ * (P / T0 * channelRate ref tr psi L (centres s) f.reaction) := by
    have := key (fun _ => 1) _ _ (by simp) hlist
    have e1 : ∀ (l : List ℝ) (cs : List (ℝ × ℝ)), l.length = cs.length →
        List.zipWith (· * ·) l (cs.map fun _ => (1 : ℝ)) = l := by
      intro l
      induction l with
      | nil => intro cs _; rfl
      | cons a l ih =>
        intro cs h
        cases cs with
        | nil => simp at h
        | cons c cs => simp only [List.map_cons, List.zipWith_cons_cons, mul_one]; rw [ih cs (by simpa using h)]
    rw [e1 _ _ hlist.length_eq] at this
    simp only [mul_one] at this
    exact this
  have hkc : 0 < P / T0 * channelRate ref tr psi L (centres s) f.reaction := mul_pos hk hch
  have hspos : 0 < (strengths s f.reaction).sum := (pos_iff_close hkc.le hsm hsum).2 hkc
  have htp : ∀ p ∈ centres s, 0.2 ≤ temperatureAt tr psi p ∧ temperatureAt tr psi p ≤ 100 := fun p hp => (hok p hp).2.2
  have htn : ∀ p ∈ centres s, 0 ≤ temperatureAt tr psi p := fun p hp => by linarith [(htp p hp).1]
  obtain ⟨t1, T, t2, t3⟩ := C89_header hA hQ hr.reach hr.wise (by
      rw [hr.temp]
      intro t ht
      obtain ⟨p, hp, rfl⟩ := List.mem_map.1 ht
      exact htn p hp) (by linarith) stub files hf f hfm hspos
  have hε : 4 * (cells s : ℝ) * u ≤ 4 / 3 * δ := by linarith
  have hε0 : 0 ≤ 4 * (cells s : ℝ) * u := by positivity
  have htm := key (temperatureAt tr psi) _ _ htn hlist
  rw [← hr.temp] at htm
  have hWT : 0 ≤ ((centres s).map fun p => cellRate ref tr psi L f.reaction p * temperatureAt tr psi p).sum := by
    refine List.sum_nonneg ?_
    intro a ha
    obtain ⟨p, hp, rfl⟩ := List.mem_map.1 ha
    exact mul_nonneg (hWn p hp) (htn p hp)
  have hmean := ratio_close (mul_nonneg hk.le hWT) hkc h0 hsm htm hsum
  rw [mul_div_mul_left _ _ hk.ne'] at hmean
  have hT := ratio_trans (div_nonneg hWT hch.le) hε0 h0 hsm hε t3 hmean
  refine ⟨?_, ⟨T, t2, hT⟩, ?_⟩
  · rw [mul_div_right_comm]
    have : |(strengths s f.reaction).sum - P / T0 * channelRate ref tr psi L (centres s) f.reaction| ≤
      2.01 * δ * (P / T0 * channelRate ref tr psi L (centres s) f.reaction) :=
      hsum.trans (mul_le_mul_of_nonneg_right (by linarith) hkc.le)
    exact ratio_trans hkc.le hε0 h0 hsm hε t1 this
  intro r cit hcit hpr
  have hapart : CellsApart s := C89_sampled A u pi pts oX oZ L M hres s (by
      rw [w1, (C93_cells hs).2]; rfl) (by rw [w2, (C93_cells hs).2]; rfl) w4
  have hmb : 0.2 * channelRate ref tr psi L (centres s) f.reaction ≤
        ((centres s).map fun p => cellRate ref tr psi L f.reaction p * temperatureAt tr psi p).sum ∧
      ((centres s).map fun p => cellRate ref tr psi L f.reaction p * temperatureAt tr psi p).sum ≤
        100 * channelRate ref tr psi L (centres s) f.reaction := by
    unfold channelRate
    rw [← List.sum_map_mul_left, ← List.sum_map_mul_left]
    constructor
    · refine List.sum_le_sum ?_
      intro p hp
      have := mul_le_mul_of_nonneg_left (htp p hp).1 (hWn p hp)
      linarith
    · refine List.sum_le_sum ?_
      intro p hp
      have := mul_le_mul_of_nonneg_left (htp p hp).2 (hWn p hp)
      linarith
  have hTr : InRange (T / 1000) := by
    have b1 := (le_div_iff₀ hch).2 hmb.1
    have b2 := (div_le_iff₀ hch).2 hmb.2
    generalize ((centres s).map fun p => cellRate ref tr psi L f.reaction p * temperatureAt tr psi p).sum /
        channelRate ref tr psi L (centres s) f.reaction = m at b1 b2 hT
    have b3 := abs_le.1 hT
    have b4 : 3.5 * δ * m ≤ 3.5 * (1 / 500) * m :=
      mul_le_mul_of_nonneg_right (by linarith) (by linarith)
    exact inRange_of _ (by linarith [b3.1]) (by linarith [b3.2])
  obtain ⟨text, c, c1, c2, -, c4⟩ := C89_bins hA hu hQ hr.reach hr.wise hapart (by rw [w4]; exact hres.side) hxne (by
      rw [w4, w1, w2]
      intro a ha
      rcases List.mem_append.1 ha with ha | ha
      · obtain ⟨p, hp, rfl⟩ := List.mem_map.1 ha; exact (hfar p hp).1
      · obtain ⟨p, hp, rfl⟩ := List.mem_map.1 ha; exact (hfar p hp).2) (by linarith) stub files hf f hfm r T cit hcit
    t2 hTr hpr
  refine ⟨text, c, c1, c2, ?_⟩
  have hzip : List.zip s.x (List.zip s.z (strengths s f.reaction)) =
      List.zipWith (fun p a => (p.1, p.2, a)) (centres s) (strengths s f.reaction) := by
    rw [w1, w2]
    generalize strengths s f.reaction = l
    generalize centres s = cs
    induction cs generalizing l with
    | nil => rfl
    | cons a cs ih =>
      cases l with
      | nil => simp
      | cons b l => simp only [List.map_cons, List.zip_cons_cons, List.zipWith_cons_cons]; rw [ih]
  rw [hzip] at c4
  have hsl : (strengths s f.reaction).length = (centres s).length := hlist.length_eq
  rw [List.forall₂_iff_get] at c4 hlist ⊢
  have hlen : (centres s).length = (sdefBins c).length := by
    rw [← c4.1, List.length_zipWith, hsl, min_self]
  refine ⟨hlen, fun i i1 i2 => ?_⟩
  have hb := c4.2 i (by rw [List.length_zipWith, hsl, min_self]; exact i1) i2
  have hc := hlist.2 i (by rw [hsl]; exact i1) i1
  simp only [List.get_eq_getElem, List.getElem_zipWith] at hb hc ⊢
  have hi1 : i < (centres s).length := i1
  obtain ⟨q1, q2, q3, q4, q5, q6⟩ := hb
  rw [w4] at q1 q2 q3 q4
  rw [w1] at q3
  refine ⟨q1, q2, q3, q4, q5, ?_⟩
  have hw := hWn _ (List.getElem_mem hi1)
  have h1 := ratio_close (mul_nonneg hk.le hw) hkc h0 hsm hc hsum
  rw [mul_div_mul_left _ _ hk.ne'] at h1
  have hq : 0 ≤ cellRate ref tr psi L f.reaction (centres s)[i] / channelRate ref tr psi L (centres s) f.reaction :=
    div_nonneg hw hch.le
  generalize cellRate ref tr psi L f.reaction (centres s)[i] / channelRate ref tr psi L (centres s) f.reaction = x at *
  generalize (strengths s f.reaction)[i] / (strengths s f.reaction).sum = a at *
  unfold RelClose
  have h2 := abs_sub_le ((sdefBins c)[i]).prob a x
  have h3 := (abs_le.1 h1).2
  have h4 : 2.01 * δ * x ≤ 2.01 * (1 / 10 ^ 7) * x := mul_le_mul_of_nonneg_right (by linarith) hq
  linarith

end

theorem RingIdeal.mono {E : Type} {spectrum : Reaction → ℝ → Except Err E} {sv : Reaction → ℝ → ℝ} {tr : TransportView ℝ}
    {psi : ℝ → ℝ → ℝ} {L : ℝ} {st : List Reaction} {cs : List (ℝ × ℝ)} {ε ε' : ℝ} {p : ℝ × ℝ} {ring : Ring ℝ E}
    (hL : 0 ≤ L) (hcs : ∀ q ∈ cs, ∀ r ∈ st, 0 ≤ cellRate sv tr psi L r q) (hp : p ∈ cs) (hε : ε ≤ ε')
    (h : RingIdeal spectrum sv tr psi L st cs ε p ring) : RingIdeal spectrum sv tr psi L st cs ε' p ring := by
  have hc : ∀ q ∈ cs, ∀ r ∈ st, 0 ≤ channelNeutrons sv tr psi L r q := fun q hq r hr =>
    mul_nonneg (Nat.cast_nonneg _) (hcs q hq r hr)
  have hn : ∀ q ∈ cs, 0 ≤ neutronRate sv tr psi L st q := fun q hq => List.sum_nonneg (by
    intro a ha
    obtain ⟨r, hr, rfl⟩ := List.mem_map.1 ha
    exact hc q hq r hr)
  have hs : 0 ≤ (cs.map (neutronRate sv tr psi L st)).sum := List.sum_nonneg (by
    intro a ha
    obtain ⟨q, hq, rfl⟩ := List.mem_map.1 ha
    exact hn q hq)
  have m : ∀ y : ℝ, 0 ≤ y → ε * y ≤ ε' * y := fun y hy => mul_le_mul_of_nonneg_right hε hy
  obtain ⟨h1, h2, h3, ⟨x1, x2, x3, x4⟩, h5⟩ := h
  refine ⟨?_, ?_, h3.trans hε, ⟨x1.trans (m _ (by positivity)), x2.trans (m _ (by positivity)),
    x3.trans (m _ (by positivity)), x4.trans (m _ (by positivity))⟩, ?_⟩
  · obtain ⟨σ, e1, e2⟩ := h1
    exact ⟨σ, e1, e2.trans (m _ (div_nonneg (hn p hp) hs))⟩
  · rw [List.forall₂_iff_get] at h2 ⊢
    refine ⟨h2.1, fun i i1 i2 => ⟨(h2.2 i i1 i2).1.trans (m _ (div_nonneg ?_ (hn p hp))), (h2.2 i i1 i2).2⟩⟩
    exact hc p hp _ (List.mem_of_mem_filter (List.get_mem _ _))
  · intro d1 d2
    obtain ⟨q1, q2⟩ := h5 d1 d2
    exact ⟨q1.trans (m _ (by positivity)), q2.trans (m _ (by positivity))⟩

/-- C95.  With binary64 numbers, library functions accurate to 4 units of rounding and at most a million cells and channels,
for every source type and method: every exported OpenMC source is that of the plasma to 4 parts in 10⁹. -/
theorem C95_binary64 {F : MathLib} (hF : AccurateLib F (4 * (2 : ℝ) ^ (-53 : ℤ)))
    {U : SI} {m : Masses ℝ} (hm : RoughData U m) {Q : Reaction → ℝ} (hQ : ∀ r, 0 < Q r)
    {pts : List (ℝ × ℝ)} {oX oZ : ℝ} {psi : ℝ → ℝ → ℝ} {tr : TransportView ℝ}
    {arg : SourceArg} {L : ℝ} (hL : 0 ≤ L) {method : ReactivityMethod} {s : Source ℝ} {P : ℝ} (hP : 0 < P)
    (hs : Source.makeR binary64 F (reactivityXsR binary64 F (round53 Real.pi) U m) (round53 Real.pi) Q pts oX oZ psi tr
      arg L (some P) method = .ok s)
    (hok : PlasmaOK tr psi (centres s)) (hN : cells s + s.sourceType.length ≤ 1000000)
    (hpos : 0 < ((centres s).map (neutronRate (referenceReactivity U m method) tr psi L s.sourceType)).sum)
    {E : Type} (spectrum : Reaction → ℝ → Except Err E) (rings : List (Ring ℝ E))
    (h : s.toOpenmcR binary64 spectrum = .ok rings) :
    List.Forall₂ (RingIdeal spectrum (referenceReactivity U m method) tr psi L s.sourceType (centres s) (4 / 10 ^ 9))
      ((centres s).filter fun p => decide (0 < neutronRate (referenceReactivity U m method) tr psi L s.sourceType p))
      rings := by
  have h53 := u53
  have hp : (0 : ℝ) < (2 : ℝ) ^ (-53 : ℤ) := by positivity
  have hpi : |round53 Real.pi - Real.pi| ≤ (2 : ℝ) ^ (-53 : ℤ) * Real.pi := by
    have := C74_binary64.rel Real.pi
    rwa [abs_of_pos Real.pi_pos] at this
  have hN' : (cells s : ℝ) + s.sourceType.length ≤ 1000000 := by exact_mod_cast hN
  have hε : 2.3 * (165000 * (4 * (2 : ℝ) ^ (-53 : ℤ))) +
      3 * ((cells s : ℝ) + s.sourceType.length + 14) * (2 : ℝ) ^ (-53 : ℤ) ≤ 1 / 10 ^ 9 := by
    have : 3 * ((cells s : ℝ) + s.sourceType.length + 14) * (2 : ℝ) ^ (-53 : ℤ) ≤
        3 * 1000014 * (2 : ℝ) ^ (-53 : ℤ) := mul_le_mul_of_nonneg_right (by linarith) hp.le
    linarith
  have hacc : ∀ r ∈ s.sourceType, _ := fun r (_ : r ∈ s.sourceType) =>
    all_accurate C74_binary64 hF (by linarith) (by linarith) hpi hm method r
  have hr := makeR_ready C74_binary64 hpi hQ (by positivity) hacc hok hP hs (hε.trans (by norm_num))
  have key := C95_openmc C74_binary64 hpi hQ (by positivity) hacc hok hP hs (hε.trans (by norm_num)) hL hpos spectrum
    rings h
  rw [List.forall₂_iff_get] at key ⊢
  refine ⟨key.1, fun i i1 i2 => RingIdeal.mono hL hr.rate (List.mem_of_mem_filter (List.get_mem _ _)) ?_ (key.2 i i1 i2)⟩
  linarith

namespace Ex

theorem rate_sum_pos {U : SI} {m : Masses ℝ} (hm : RoughData U m) (psi : ℝ → ℝ → ℝ) (st : List Reaction) (hst : .DT ∈ st)
    (cs : List (ℝ × ℝ)) (hcs : cs ≠ []) (hx : ∀ p ∈ cs, 0 < p.1) :
    0 < (cs.map (neutronRate (referenceReactivity U m .AUTO) flat psi (3 / 10) st)).sum := by
  have h53 := u53
  have hp : (0 : ℝ) < (2 : ℝ) ^ (-53 : ℤ) := by positivity
  have hpi : |round53 Real.pi - Real.pi| ≤ (2 : ℝ) ^ (-53 : ℤ) * Real.pi := by
    have := C74_binary64.rel Real.pi
    rwa [abs_of_pos Real.pi_pos] at this
  have hacc := all_accurate C74_binary64 accurate_libs.2 (by linarith) (by linarith) hpi hm .AUTO
  refine List.sum_pos _ ?_ (by simpa using hcs)
  intro y hy
  obtain ⟨p, hpp, rfl⟩ := List.mem_map.1 hy
  have hx := hx p hpp
  have hpi0 := Real.pi_pos
  have e : valueAt flat.temperature (psi p.1 p.2) = 10 := by simp [valueAt, flat]
  have hsp : ∀ sp, 0 ≤ density flat (psi p.1 p.2) sp := by
    intro sp
    cases sp <;> simp [density, valueAt, flat] <;> norm_num
  have hall : ∀ r : Reaction, 0 ≤ channelNeutrons (referenceReactivity U m .AUTO) flat psi (3 / 10) r p := by
    intro r
    have h2 := (hacc r).pos 10 (by norm_num) (by norm_num)
    refine mul_nonneg (Nat.cast_nonneg _) (mul_nonneg ?_ (by positivity))
    rw [e]
    exact rateDensity_nonneg' _ hsp _ h2.le r
  have hdt : 0 < channelNeutrons (referenceReactivity U m .AUTO) flat psi (3 / 10) .DT p := by
    have h2 := (hacc .DT).pos 10 (by norm_num) (by norm_num)
    refine mul_pos (by norm_num [neutronYield, Reaction.DT]) (mul_pos ?_ (by positivity))
    unfold rateDensity
    rw [e]
    generalize referenceReactivity U m .AUTO .DT = ref at h2
    refine div_pos (mul_pos ?_ h2) ?_
    · simp [reactants, density, valueAt, flat, Reaction.DT]; norm_num
    · split_ifs <;> norm_num
  have h1 : ∀ a ∈ st.map (fun r => channelNeutrons (referenceReactivity U m .AUTO) flat psi (3 / 10) r p), 0 ≤ a := by
    intro a ha
    obtain ⟨r, -, rfl⟩ := List.mem_map.1 ha
    exact hall r
  exact lt_of_lt_of_le hdt (List.single_le_sum h1 _ (List.mem_map.2 ⟨.DT, hst, rfl⟩))

end Ex

namespace Ex

theorem rect_extent (p : ℝ × ℝ) (hp : p ∈ samplePointsR binary64 rectangle 2 0 (3 / 10)) : |p.1| ≤ 4 ∧ |p.2| ≤ 4 := by
  obtain ⟨i, hi, rfl⟩ := List.mem_iff_getElem.1 hp
  have h := List.forall₂_iff_get.1 rect_cells
  have hi' := h.1 ▸ hi
  have hc := h.2 i hi hi'
  simp only [List.get_eq_getElem] at hc
  have hm := List.getElem_mem hi'
  obtain ⟨⟨a, ha, a1⟩, ⟨b, hb, b1⟩, ⟨c, hc', c1⟩, ⟨d, hd, d1⟩⟩ := C65_within_box rectangle _ (List.mem_filter.1 hm).2
  have k1 : ∀ a ∈ rectangle.map Prod.fst, 1 ≤ a ∧ a ≤ 3 := by
    intro a ha
    simp only [rectangle, List.map_cons, List.map_nil, List.mem_cons, List.not_mem_nil, or_false] at ha
    rcases ha with rfl | rfl | rfl | rfl | rfl <;> norm_num
  have k2 : ∀ a ∈ rectangle.map Prod.snd, -1 ≤ a ∧ a ≤ 1 := by
    intro a ha
    simp only [rectangle, List.map_cons, List.map_nil, List.mem_cons, List.not_mem_nil, or_false] at ha
    rcases ha with rfl | rfl | rfl | rfl | rfl <;> norm_num
  have q1 := abs_le.1 hc.1
  have q2 := abs_le.1 hc.2
  have := k1 _ ha
  have := k1 _ hb
  have := k2 _ hc'
  have := k2 _ hd
  rw [abs_le, abs_le]
  refine ⟨⟨?_, ?_⟩, ?_, ?_⟩ <;> linarith

/-- The hypotheses of C95 are met, and the conclusions are about something: a 500 MW source with the default reactions
exports to OpenMC sources and to SDEF files. -/
example (psi : ℝ → ℝ → ℝ) : ∃ (s : Source ℝ) (rings : List (Ring ℝ Unit)) (files : List (SdefFile ℝ)),
    s.toOpenmcR binary64 (fun _ _ => .ok ()) = .ok rings ∧ s.toSdefR binary64 "out" = .ok files ∧ rings ≠ [] ∧
      rings.length = cells s ∧ .DT ∈ files.map SdefFile.reaction := by
  obtain ⟨s, hs, -, hdt, hok, hN, hne⟩ := default_source psi
  generalize hU : (⟨1.602176634e-16, 1.66053906660e-27⟩ : SI) = U at hs
  generalize hM : (⟨2.01410177812, 3.0160492779, 4.002602, 3.0160293201, 1.00866491588,
        1.007276466621, 5.48579909065e-4⟩ : Masses ℝ) = m at hs
  have hm : RoughData U m := by rw [← hU, ← hM]; exact rough_measured
  have h53 := u53
  have hp : (0 : ℝ) < (2 : ℝ) ^ (-53 : ℤ) := by positivity
  have hpi : |round53 Real.pi - Real.pi| ≤ (2 : ℝ) ^ (-53 : ℤ) * Real.pi := by
    have := C74_binary64.rel Real.pi
    rwa [abs_of_pos Real.pi_pos] at this
  have hN' : (cells s : ℝ) + s.sourceType.length ≤ 1000000 := by exact_mod_cast hN
  have hε : 2.3 * (165000 * (4 * (2 : ℝ) ^ (-53 : ℤ))) +
      3 * ((cells s : ℝ) + s.sourceType.length + 14) * (2 : ℝ) ^ (-53 : ℤ) ≤ 1 / 10 ^ 9 := by
    have : 3 * ((cells s : ℝ) + s.sourceType.length + 14) * (2 : ℝ) ^ (-53 : ℤ) ≤
        3 * 1000014 * (2 : ℝ) ^ (-53 : ℤ) := mul_le_mul_of_nonneg_right (by linarith) hp.le
    linarith
  have hacc : ∀ r ∈ s.sourceType, _ := fun r (_ : r ∈ s.sourceType) =>
    all_accurate C74_binary64 accurate_libs.2 (by linarith) (by linarith) hpi hm .AUTO r
  have hc := (C93_cells hs).2
  have hx : ∀ p ∈ centres s, 0 < p.1 := by
    intro p hp
    rw [hc] at hp
    linarith [rect_radius p hp]
  have hpos := rate_sum_pos hm psi s.sourceType hdt (centres s) hne hx
  have hQ : ∀ r : Reaction, (0 : ℝ) < (fun _ => 2.8e-12) r := fun _ => by norm_num
  obtain ⟨rings, hr⟩ := C95_succeeds C74_binary64 hpi hQ (by positivity) hacc hok (by norm_num) hs
    (hε.trans (by norm_num)) hpos (fun _ _ => .ok ()) (fun _ _ => ()) (fun _ _ _ _ _ => rfl)
  obtain ⟨files, hf, hf1, -⟩ := C95_sdef C74_binary64 hpi hQ (by positivity) hacc hok (by norm_num) hs rect_resolved
    (by linarith) (hε.trans (by norm_num)) (by
      intro p hp
      rw [hc] at hp
      obtain ⟨e1, e2⟩ := rect_extent p hp
      constructor <;> linarith) hne "out"
  have key := C95_binary64 accurate_libs.2 hm hQ (by norm_num) (by norm_num) hs hok hN hpos _ rings hr
  have hall : (centres s).filter (fun p => decide (0 < neutronRate (referenceReactivity U m .AUTO) flat psi (3 / 10)
      s.sourceType p)) = centres s := by
    rw [List.filter_eq_self]
    intro p hp
    have := rate_sum_pos hm psi s.sourceType hdt [p] (by simp) (by
      intro q hq
      rw [List.mem_singleton.1 hq]
      exact hx p hp)
    simpa using this
  rw [hall] at key
  have hl := key.length_eq
  refine ⟨s, rings, files, hr, hf, ?_, ?_, ?_⟩
  · rintro rfl
    exact hne (List.length_eq_zero_iff.1 hl)
  · rw [← hl, (makeR_wise hs).2.2.2.2]
  · rw [hf1]
    exact List.mem_filter.2 ⟨hdt, by simp [neutronYield, Reaction.DT]⟩

end Ex

end
end TNS
