import Verif.Props.RoundedFluxSample
import Verif.Props.FluxMap
/-
C101: flux maps in floating point: normalisation of the poloidal flux, labels of parameterised maps.
-/

set_option autoImplicit false

namespace TNS
open Spec
noncomputable section

section
variable {A : Arith} {F : MathLib} {G : TrigLib} {u v pi : ℝ}

/-- Normalisation, with factors on the two differences. -/
theorem normalise_factor (hA : StandardModel A u) (huv : u ≤ v) (hv : v ≤ 1 / 100) {x x' b b' ax α β ea eb : ℝ}
    (hx : ax - x' = (ax - x) * α) (hb : ax - b' = (ax - b) * β) (hα : LC ea α 1) (hβ : LC eb β 1) :
    ∃ θ, normalisePsiR A F x' ax b' .linear = normaliseLinear x ax b * θ ∧ LC (ea + eb + 3.06 * v) θ 1 := by
  obtain ⟨t1, r1, l1⟩ := rd_factor hA huv hv (ax - x')
  obtain ⟨t2, r2, l2⟩ := rd_factor hA huv hv (ax - b')
  obtain ⟨t3, r3, l3⟩ := rd_factor hA huv hv (A.rd (ax - x') / A.rd (ax - b'))
  refine ⟨α * t1 / (β * t2) * t3, ?_, ?_⟩
  · have pos : 0 < α * t1 / (β * t2) * t3 := mul_pos (div_pos (mul_pos hα.1 l1.1) (mul_pos hβ.1 l2.1)) l3.1
    simp only [normalisePsiR, normaliseLinear]
    rw [max_mul_of_nonneg _ _ pos.le, zero_mul, r3, r1, r2, hx, hb]
    congr 1
    have b0 := hβ.1.ne'
    have t0 := l2.1.ne'
    rw [mul_assoc, mul_assoc, mul_div_mul_comm]
    ring
  · have := ((hα.mul l1).div (hβ.mul l2)).mul l3
    simp only [mul_one, div_one] at this
    exact this.mono (by linarith)

theorem sqrt_factor (hF : AccurateLib F v) (hv : v ≤ 1 / 100) {y θ e : ℝ} (hy : 0 ≤ y) (hθ : LC e θ 1) :
    ∃ τ, F.sqrt (y * θ) = Real.sqrt y * τ ∧ LC (e / 2 + 1.02 * v) τ 1 := by
  have v0 : 0 ≤ v := by
    have := (abs_nonneg _).trans (hF.sqrt 1 (by norm_num))
    simpa using this
  have h := hF.sqrt (y * θ) (mul_nonneg hy hθ.1.le)
  have hs := hθ.sqrt
  rw [Real.sqrt_one] at hs
  rcases eq_or_lt_of_le hy with rfl | hp
  · rw [zero_mul, Real.sqrt_zero, mul_zero, sub_zero] at h
    refine ⟨1, by rw [zero_mul, Real.sqrt_zero, zero_mul]; exact abs_eq_zero.1 (le_antisymm h (abs_nonneg _)), ?_⟩
    have e0 : 0 ≤ e := (abs_nonneg _).trans hθ.2.2
    exact (LC.refl one_pos).mono (by positivity)
  · have q : 0 < Real.sqrt (y * θ) := Real.sqrt_pos.2 (mul_pos hp hθ.1)
    have h2 := LC.of_rel q hv h
    refine ⟨F.sqrt (y * θ) / Real.sqrt y, by rw [mul_div_cancel₀ _ (Real.sqrt_pos.2 hp).ne'], ?_⟩
    have h3 := h2.div (LC.refl (Real.sqrt_pos.2 hp))
    have e3 : Real.sqrt (y * θ) / Real.sqrt y = Real.sqrt θ := by
      rw [Real.sqrt_mul hy, mul_div_cancel_left₀ _ (Real.sqrt_pos.2 hp).ne']
    rw [e3] at h3
    exact (h3.trans hs).mono (by linarith)

/-- One normalised value, for both conventions, given the errors of its inputs. -/
theorem normalise_err (hA : StandardModel A u) (hF : AccurateLib F v) (huv : u ≤ v) {x x' b b' ax α β ea eb : ℝ}
    (hx : ax - x' = (ax - x) * α) (hb : ax - b' = (ax - b) * β) (hα : LC ea α 1) (hβ : LC eb β 1)
    (hs : ea + eb + 5 * v ≤ 1 / 100) (conv : FluxConvention) :
    |normalisePsiR A F x' ax b' conv - normalisePsi x ax b conv| ≤ 1.02 * (ea + eb + 3.1 * v) * normalisePsi x ax b conv := by
  have ea0 : 0 ≤ ea := (abs_nonneg _).trans hα.2.2
  have eb0 : 0 ≤ eb := (abs_nonneg _).trans hβ.2.2
  have v0 := hA.u_nonneg.trans huv
  have hv : v ≤ 1 / 100 := by linarith
  obtain ⟨θ, e, l⟩ := normalise_factor (F := F) hA huv hv hx hb hα hβ
  have n0 : 0 ≤ normaliseLinear x ax b := le_max_right _ _
  have fin : ∀ {y t w : ℝ}, 0 ≤ y → LC w t 1 → w ≤ ea + eb + 3.1 * v →
      |y * t - y| ≤ 1.02 * (ea + eb + 3.1 * v) * y := by
    intro y t w hy h hw
    have := (h.mono hw).rel (by linarith)
    rw [mul_one] at this
    rw [show y * t - y = (t - 1) * y by ring, abs_mul, abs_of_nonneg hy]
    exact mul_le_mul_of_nonneg_right this hy
  cases conv with
  | linear =>
    rw [e]
    exact fin n0 l (by linarith)
  | sqrt =>
    obtain ⟨τ, e2, l2⟩ := sqrt_factor hF hv n0 l
    have : normalisePsiR A F x' ax b' .sqrt = F.sqrt (normalisePsiR A F x' ax b' .linear) := rfl
    rw [this, e, e2]
    exact fin (Real.sqrt_nonneg _) l2 (by linarith)

/-- C101.  Normalising the poloidal flux costs at most four roundings of relative error, in both conventions: all fluxes,
including those outside the last closed flux surface. -/
theorem C101_normalise (hA : StandardModel A u) (hF : AccurateLib F v) (huv : u ≤ v) (hv : v ≤ 1 / 1000) (psi axis boundary : ℝ)
    (conv : FluxConvention) :
    |normalisePsiR A F psi axis boundary conv - normalisePsi psi axis boundary conv| ≤
      4 * v * normalisePsi psi axis boundary conv := by
  have v0 := hA.u_nonneg.trans huv
  have h := normalise_err (x := psi) (x' := psi) (b := boundary) (b' := boundary) (ax := axis) (α := 1) (β := 1) hA hF huv
    (by ring) (by ring) (LC.refl one_pos) (LC.refl one_pos) (by linarith) conv
  refine h.trans (mul_le_mul_of_nonneg_right (by linarith) ?_)
  cases conv with
  | linear => exact le_max_right _ _
  | sqrt => exact Real.sqrt_nonneg _

/-- C101.  The normalised flux map read from an EQDSK file, whatever its sign convention: if the flux at the boundary, found by
interpolation, is right to a fraction `δ` of the flux between axis and boundary, every normalised flux has a relative error of
at most `6 v + 1.1 δ`. -/
theorem C101_eqdsk (hA : StandardModel A u) (hF : AccurateLib F v) (huv : u ≤ v) (hv : v ≤ 1 / 10000) (eq : Eqdsk ℝ)
    (lcfsPsi : Eqdsk ℝ → List ℝ) (conv : FluxConvention) (δ : ℝ) (hδ : δ ≤ 1 / 200)
    (hb : |npMin (lcfsPsi (loadEqdskR A eq)) - npMin (lcfsPsi (loadEqdsk eq))| ≤
      δ * |(loadEqdsk eq).psimag - npMin (lcfsPsi (loadEqdsk eq))|) :
    List.Forall₂ (fun y' y => |y' - y| ≤ (6 * v + 1.1 * δ) * y) (fromEqdskPsiR A F eq lcfsPsi conv) (fromEqdskPsi eq lcfsPsi conv) := by
  have v0 := hA.u_nonneg.trans huv
  have hv' : v ≤ 1 / 100 := by linarith
  -- the boundary value, as a factor
  obtain ⟨β, eβ, lβ⟩ : ∃ β, (loadEqdsk eq).psimag - npMin (lcfsPsi (loadEqdskR A eq)) =
      ((loadEqdsk eq).psimag - npMin (lcfsPsi (loadEqdsk eq))) * β ∧ LC (1.02 * max δ 0) β 1 := by
    generalize npMin (lcfsPsi (loadEqdskR A eq)) = b' at *
    generalize npMin (lcfsPsi (loadEqdsk eq)) = b at *
    generalize (loadEqdsk eq).psimag = ax at *
    by_cases h0 : ax - b = 0
    · rw [h0, abs_zero, mul_zero] at hb
      have : b' = b := by have := abs_eq_zero.1 (le_antisymm hb (abs_nonneg _)); linarith
      refine ⟨1, by rw [this, mul_one], (LC.refl one_pos).mono ?_⟩
      have := le_max_right δ 0
      positivity
    · refine ⟨(ax - b') / (ax - b), by rw [mul_div_cancel₀ _ h0], LC.of_rel one_pos (max_le (by linarith) (by norm_num)) ?_⟩
      rw [mul_one, show (ax - b') / (ax - b) - 1 = -((b' - b) / (ax - b)) by field_simp; ring, abs_neg, abs_div,
        div_le_iff₀ (abs_pos.2 h0)]
      exact hb.trans (mul_le_mul_of_nonneg_right (le_max_left _ _) (abs_nonneg _))
  have mag : (loadEqdskR A eq).psimag = (loadEqdsk eq).psimag := by
    unfold loadEqdskR loadEqdsk
    split_ifs <;> rfl
  -- the flux values, as factors
  have vals : List.Forall₂ (fun x' x => ∃ α, (loadEqdsk eq).psimag - x' = ((loadEqdsk eq).psimag - x) * α ∧ LC (1.02 * v) α 1)
      (loadEqdskR A eq).psi (loadEqdsk eq).psi := by
    unfold loadEqdskR loadEqdsk
    split_ifs
    · simp only
      rw [List.forall₂_map_left_iff, List.forall₂_map_right_iff, List.forall₂_same]
      intro x _
      obtain ⟨α, e, l⟩ := rd_factor hA huv hv' (eq.psimag - x)
      exact ⟨α, by rw [e]; ring, l⟩
    · rw [List.forall₂_same]
      intro x _
      exact ⟨1, by rw [mul_one], (LC.refl one_pos).mono (by positivity)⟩
  unfold fromEqdskPsiR fromEqdskPsi
  simp only
  rw [List.forall₂_map_left_iff, List.forall₂_map_right_iff, mag]
  refine List.Forall₂.imp ?_ vals
  rintro x' x ⟨α, eα, lα⟩
  have m : max δ 0 ≤ 1 / 200 := max_le hδ (by norm_num)
  have m0 := le_max_right δ 0
  have h := normalise_err hA hF huv eα eβ lα lβ (by linarith) conv
  refine h.trans ?_
  have n0 : 0 ≤ normalisePsi x (loadEqdsk eq).psimag (npMin (lcfsPsi (loadEqdsk eq))) conv := by
    cases conv with
    | linear => exact le_max_right _ _
    | sqrt => exact Real.sqrt_nonneg _
  by_cases h0 : (loadEqdsk eq).psimag - npMin (lcfsPsi (loadEqdsk eq)) = 0
  · have : normalisePsi x (loadEqdsk eq).psimag (npMin (lcfsPsi (loadEqdsk eq))) conv = 0 := by
      cases conv <;> simp [normalisePsi, normaliseLinear, h0]
    rw [this, mul_zero, mul_zero]
  · have hδ0 : 0 ≤ δ := by
      by_contra hc
      have := mul_neg_of_neg_of_pos (not_le.1 hc) (abs_pos.2 h0)
      linarith [abs_nonneg (npMin (lcfsPsi (loadEqdskR A eq)) - npMin (lcfsPsi (loadEqdsk eq)))]
    rw [max_eq_left hδ0]
    exact mul_le_mul_of_nonneg_right (by linarith) n0

/-- C101.  `load_eqdsk` changes the sign convention for exactly the same files, puts the axis at exactly zero then, and the
fluxes are right to one rounding. -/
theorem C101_load (hA : StandardModel A u) (eq : Eqdsk ℝ) :
    (loadEqdskR A eq).psimag = (loadEqdsk eq).psimag ∧
    |(loadEqdskR A eq).psibdry - (loadEqdsk eq).psibdry| ≤ u * |(loadEqdsk eq).psibdry| ∧
    List.Forall₂ (fun p' p => |p' - p| ≤ u * |p|) (loadEqdskR A eq).psi (loadEqdsk eq).psi ∧
    (loadEqdskR A eq).psibdry ≤ (loadEqdskR A eq).psimag := by
  have same : ∀ x : ℝ, |x - x| ≤ u * |x| := fun x => by
    rw [sub_self, abs_zero]; exact mul_nonneg hA.u_nonneg (abs_nonneg _)
  unfold loadEqdskR loadEqdsk
  split_ifs with h
  · refine ⟨rfl, hA.rel _, ?_, ?_⟩
    · simp only
      rw [List.forall₂_map_left_iff, List.forall₂_map_right_iff, List.forall₂_same]
      exact fun x _ => hA.rel _
    · have r := hA.rel (eq.psimag - eq.psibdry)
      rw [abs_of_neg (show eq.psimag - eq.psibdry < 0 by linarith)] at r
      have := (abs_le.1 r).2
      have k := mul_le_mul_of_nonneg_right hA.u_lt_one.le (show 0 ≤ -(eq.psimag - eq.psibdry) by linarith)
      simp only
      linarith
  · exact ⟨rfl, same _, by rw [List.forall₂_same]; exact fun x _ => same x, not_lt.1 h⟩

theorem extent_mono {l : LCFSInfo ℝ} (hr : 0 < l.r0) (ha : 1 < l.aspect) (hk : 1 ≤ l.kappa) (hs : 0 ≤ l.shift) {psi : ℝ}
    (h : |psi| ≤ 1) : extent l psi ≤ extent l 1 := by
  have q : 0 ≤ l.r0 / l.aspect := div_nonneg hr.le (by linarith)
  have sq : psi ^ 2 ≤ 1 := by rw [← sq_abs]; exact pow_le_one₀ (abs_nonneg _) h
  unfold extent
  have k1 : |psi| * (l.r0 / l.aspect) * l.kappa * (1 + |l.squareness|) ≤ |1| * (l.r0 / l.aspect) * l.kappa * (1 + |l.squareness|) := by
    rw [abs_one]
    gcongr
  have k2 : l.shift * (1 + psi ^ 2) ≤ l.shift * (1 + 1 ^ 2) := mul_le_mul_of_nonneg_left (by linarith) hs
  linarith

/-- One label of a parameterised map. -/
theorem label_err (hA : StandardModel A u) (hF : AccurateLib F v) (huv : u ≤ v) (hv : v ≤ 1 / 10 ^ 5) {r : ℝ} (h0 : 0 ≤ r) (h1 : r ≤ 1)
    {q : ℝ} (hq : |q - (1 - r)| ≤ v) (hq0 : r = 0 → q = 1) (conv : FluxConvention) :
    LabelClose v conv (normalisePsiR A F q 1 0 conv) (normalisePsi (1 - r) 1 0 conv) := by
  have v0 := hA.u_nonneg.trans huv
  have ex : normaliseLinear (1 - r) 1 0 = r := by
    unfold normaliseLinear; rw [show (1 - (1 - r)) / (1 - 0) = r by ring]; exact max_eq_left h0
  have lin : |normalisePsiR A F q 1 0 .linear - r| ≤ 5 * v ∧ (r = 0 → normalisePsiR A F q 1 0 .linear = 0) := by
    have e1 : normaliseLinear q 1 0 = max (1 - q) 0 := by
      unfold normaliseLinear; rw [show (1 - q) / (1 - 0) = 1 - q by ring]
    have n := C101_normalise hA hF huv (by linarith) q 1 0 .linear
    have e2 : normalisePsi q 1 0 .linear = max (1 - q) 0 := e1
    rw [e2] at n
    have hq' := abs_le.1 hq
    have m : |max (1 - q) 0 - r| ≤ v := by
      have := abs_max_sub_max_le_abs (1 - q) r 0
      rw [max_eq_left h0] at this
      refine this.trans (le_trans (le_of_eq ?_) hq)
      rw [show 1 - q - r = -(q - (1 - r)) by ring, abs_neg]
    have m1 : max (1 - q) 0 ≤ 1 + v := by linarith [(abs_le.1 m).2]
    have k := mul_le_mul_of_nonneg_left m1 (show 0 ≤ 4 * v by linarith)
    constructor
    · have t := abs_sub_le (normalisePsiR A F q 1 0 .linear) (max (1 - q) 0) r
      have := n.trans k
      by_cases hr : r = 0
      · have hq1 := hq0 hr
        rw [hq1, sub_self, max_self, mul_zero] at n
        rw [hq1, sub_self, max_self] at t
        rw [hr] at t ⊢
        rw [hq1]
        simp only [sub_zero, abs_zero, add_zero] at t n ⊢
        linarith
      · by_cases hr2 : r ≤ 0.9
        · have m2 : max (1 - q) 0 ≤ 0.95 := by linarith [(abs_le.1 m).2]
          have k2 := mul_le_mul_of_nonneg_left m2 (show 0 ≤ 4 * v by linarith)
          linarith
        · -- the bound of normalisation is not sharp: `1.02 · 3.1 v`
          have h := normalise_err (F := F) (x := q) (x' := q) (b := 0) (b' := 0) (ax := 1) (α := 1) (β := 1) hA hF huv (by ring) (by ring)
            (LC.refl one_pos) (LC.refl one_pos) (by linarith) .linear
          rw [e2] at h
          have k3 := mul_le_mul_of_nonneg_left m1 (show 0 ≤ 1.02 * (0 + 0 + 3.1 * v) by linarith)
          have : 1.02 * (0 + 0 + 3.1 * v) * (1 + v) ≤ 3.2 * v := by nlinarith
          linarith
    · intro hr
      rw [hq0 hr, sub_self, max_self, mul_zero] at n
      have := abs_eq_zero.1 (le_antisymm n (abs_nonneg _))
      rw [hq0 hr]
      linarith
  cases conv with
  | linear =>
    have : normalisePsi (1 - r) 1 0 .linear = r := ex
    rw [this]
    exact lin.1
  | sqrt =>
    have e : normalisePsi (1 - r) 1 0 .sqrt = Real.sqrt r := by simp only [normalisePsi, ex]
    rw [e]
    have d : normalisePsiR A F q 1 0 .sqrt = F.sqrt (normalisePsiR A F q 1 0 .linear) := rfl
    rw [d]
    have p0 : 0 ≤ normalisePsiR A F q 1 0 .linear := le_max_right _ _
    generalize normalisePsiR A F q 1 0 .linear = p at *
    obtain ⟨l1, l2⟩ := lin
    have s := hF.sqrt p p0
    constructor
    · intro hr
      rw [Real.sqrt_eq_zero h0] at hr
      rw [l2 hr, Real.sqrt_zero, mul_zero, sub_zero] at s
      rw [l2 hr]
      exact abs_eq_zero.1 (le_antisymm s (abs_nonneg _))
    · have sr1 : Real.sqrt r ≤ 1 := Real.sqrt_le_one.2 h1
      have sr0 := Real.sqrt_nonneg r
      have sp0 := Real.sqrt_nonneg p
      have l3 := abs_le.1 l1
      have sp1 : Real.sqrt p ≤ 1.1 := by
        rw [Real.sqrt_le_left (by norm_num)]
        linarith
      have a1 : |F.sqrt p - Real.sqrt p| * Real.sqrt r ≤ 1.1 * v := by
        have : v * Real.sqrt p ≤ v * 1.1 := mul_le_mul_of_nonneg_left sp1 v0
        calc |F.sqrt p - Real.sqrt p| * Real.sqrt r ≤ |F.sqrt p - Real.sqrt p| * 1 :=
              mul_le_mul_of_nonneg_left sr1 (abs_nonneg _)
          _ ≤ 1.1 * v := by linarith
      have a2 : |Real.sqrt p - Real.sqrt r| * Real.sqrt r ≤ 5 * v := by
        have e : (Real.sqrt p - Real.sqrt r) * (Real.sqrt p + Real.sqrt r) = p - r := by
          have := Real.mul_self_sqrt p0
          have := Real.mul_self_sqrt h0
          ring_nf
          rw [Real.sq_sqrt p0, Real.sq_sqrt h0]
        have e' : |Real.sqrt p - Real.sqrt r| * (Real.sqrt p + Real.sqrt r) = |p - r| := by
          rw [← e, abs_mul, abs_of_nonneg (show 0 ≤ Real.sqrt p + Real.sqrt r by positivity)]
        calc |Real.sqrt p - Real.sqrt r| * Real.sqrt r ≤ |Real.sqrt p - Real.sqrt r| * (Real.sqrt p + Real.sqrt r) :=
              mul_le_mul_of_nonneg_left (by linarith) (abs_nonneg _)
          _ ≤ 5 * v := e' ▸ l1
      have t := mul_le_mul_of_nonneg_right (abs_sub_le (F.sqrt p) (Real.sqrt p) (Real.sqrt r)) sr0
      linarith

end
end
end TNS
