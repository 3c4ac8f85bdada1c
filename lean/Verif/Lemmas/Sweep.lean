import Verif.Spec.Taxicab
import Verif.Lemmas.Separation
import Mathlib.MeasureTheory.Measure.Lebesgue.Basic
import Mathlib.MeasureTheory.Measure.Prod
import Mathlib.MeasureTheory.Measure.Real
/-
Area swept by a square moving along a polygonal line.
-/

set_option autoImplicit false

namespace TNS
open Spec MeasureTheory Filter Topology

/-- The closed square of side `s` about `c`. -/
def square (s : ℝ) (c : ℝ × ℝ) : Set (ℝ × ℝ) :=
  Set.Icc (c.1 - s / 2) (c.1 + s / 2) ×ˢ Set.Icc (c.2 - s / 2) (c.2 + s / 2)

theorem square_measurable (s : ℝ) (c : ℝ × ℝ) : MeasurableSet (square s c) :=
  measurableSet_Icc.prod measurableSet_Icc

theorem square_volume (s : ℝ) (hs : 0 ≤ s) (c : ℝ × ℝ) : volume (square s c) = ENNReal.ofReal (s ^ 2) := by
  unfold square
  rw [Measure.volume_eq_prod, Measure.prod_prod, Real.volume_Icc, Real.volume_Icc,
    ← ENNReal.ofReal_mul (by linarith)]
  congr 1; ring

theorem interval_sdiff (δ u v : ℝ) :
    volume (Set.Icc (u - δ) (u + δ) \ Set.Icc (v - δ) (v + δ)) ≤ ENNReal.ofReal |v - u| := by
  rcases le_total u v with h | h
  · refine (measure_mono (t := Set.Ico (u - δ) (v - δ)) ?_).trans ?_
    · rintro x ⟨⟨h1, h2⟩, h3⟩
      refine ⟨h1, ?_⟩
      by_contra hc
      exact h3 ⟨not_lt.1 hc, by linarith⟩
    · rw [Real.volume_Ico, abs_of_nonneg (by linarith)]
      exact ENNReal.ofReal_le_ofReal (by linarith)
  · refine (measure_mono (t := Set.Ioc (v + δ) (u + δ)) ?_).trans ?_
    · rintro x ⟨⟨h1, h2⟩, h3⟩
      refine ⟨?_, h2⟩
      by_contra hc
      exact h3 ⟨by linarith, not_lt.1 hc⟩
    · rw [Real.volume_Ioc, abs_of_nonpos (by linarith)]
      exact ENNReal.ofReal_le_ofReal (by linarith)

theorem square_sdiff (s : ℝ) (hs : 0 ≤ s) (c c' : ℝ × ℝ) :
    volume (square s c \ square s c') ≤ ENNReal.ofReal (s * (|c'.1 - c.1| + |c'.2 - c.2|)) := by
  have hsub : square s c \ square s c' ⊆
      ((Set.Icc (c.1 - s / 2) (c.1 + s / 2) \ Set.Icc (c'.1 - s / 2) (c'.1 + s / 2)) ×ˢ
        Set.Icc (c.2 - s / 2) (c.2 + s / 2)) ∪
      (Set.Icc (c.1 - s / 2) (c.1 + s / 2) ×ˢ
        (Set.Icc (c.2 - s / 2) (c.2 + s / 2) \ Set.Icc (c'.2 - s / 2) (c'.2 + s / 2))) := by
    rintro q ⟨⟨h1, h2⟩, h3⟩
    by_cases h : q.1 ∈ Set.Icc (c'.1 - s / 2) (c'.1 + s / 2)
    · right; exact ⟨h1, h2, fun h' => h3 ⟨h, h'⟩⟩
    · left; exact ⟨⟨h1, h⟩, h2⟩
  refine (measure_mono hsub).trans ((measure_union_le _ _).trans ?_)
  rw [Measure.volume_eq_prod, Measure.prod_prod, Measure.prod_prod, Real.volume_Icc, Real.volume_Icc]
  have e1 : c.1 + s / 2 - (c.1 - s / 2) = s := by ring
  have e2 : c.2 + s / 2 - (c.2 - s / 2) = s := by ring
  rw [e1, e2, mul_add, ENNReal.ofReal_add (by positivity) (by positivity), ENNReal.ofReal_mul hs,
    ENNReal.ofReal_mul hs, mul_comm (ENNReal.ofReal s) (ENNReal.ofReal |c'.1 - c.1|)]
  gcongr
  · exact interval_sdiff _ _ _
  · exact interval_sdiff _ _ _

theorem taxicab_nonneg (l : List (ℝ × ℝ)) : 0 ≤ taxicab l := by
  induction l with
  | nil => simp [taxicab]
  | cons a l ih =>
    cases l with
    | nil => simp [taxicab]
    | cons b l => simp only [taxicab]; positivity

theorem squares_volume (s : ℝ) (hs : 0 ≤ s) (l : List (ℝ × ℝ)) :
    volume (⋃ c ∈ l, square s c) ≤ ENNReal.ofReal (s ^ 2 + s * taxicab l) := by
  induction l with
  | nil => simp
  | cons a l ih =>
    cases l with
    | nil => simp [taxicab, square_volume s hs]
    | cons b l =>
      have hsub : (⋃ c ∈ a :: b :: l, square s c) ⊆
          (square s a \ square s b) ∪ ⋃ c ∈ b :: l, square s c := by
        intro q hq
        simp only [Set.mem_iUnion, exists_prop] at hq
        obtain ⟨c, hc, hq⟩ := hq
        by_cases hb : q ∈ square s b
        · right
          simp only [Set.mem_iUnion, exists_prop]
          exact ⟨b, by simp, hb⟩
        · rcases List.mem_cons.1 hc with rfl | hc
          · left; exact ⟨hq, hb⟩
          · right
            simp only [Set.mem_iUnion, exists_prop]
            exact ⟨c, hc, hq⟩
      refine (measure_mono hsub).trans ((measure_union_le _ _).trans ?_)
      refine (add_le_add (square_sdiff s hs a b) ih).trans ?_
      rw [← ENNReal.ofReal_add (by positivity)
        (add_nonneg (sq_nonneg _) (mul_nonneg hs (taxicab_nonneg _)))]
      apply ENNReal.ofReal_le_ofReal
      simp only [taxicab]
      linarith

/-! ### Fine points on a polygonal line -/

/-- `n` equidistant points of the edge, without its end. -/
noncomputable def subEdge (n : ℕ) (a b : ℝ × ℝ) : List (ℝ × ℝ) :=
  (List.range n).map (fun k : ℕ => edgePoint a b ((k : ℝ) / n))

/-- Equidistant points of every edge of the polygonal line `a, l`. -/
noncomputable def subChain (n : ℕ) : ℝ × ℝ → List (ℝ × ℝ) → List (ℝ × ℝ)
  | a, [] => [a]
  | a, b :: l => subEdge n a b ++ subChain n b l

theorem subChain_head (n : ℕ) (hn : 0 < n) (a : ℝ × ℝ) (l : List (ℝ × ℝ)) :
    ∃ r, subChain n a l = a :: r := by
  cases l with
  | nil => exact ⟨[], rfl⟩
  | cons b l =>
    obtain ⟨m, rfl⟩ : ∃ m, n = m + 1 := ⟨n - 1, by omega⟩
    refine ⟨((List.range m).map Nat.succ).map
      (fun k : ℕ => edgePoint a b ((k : ℝ) / ((m + 1 : ℕ) : ℝ))) ++ subChain (m + 1) b l, ?_⟩
    simp only [subChain, subEdge]
    rw [List.range_succ_eq_map, List.map_cons, List.cons_append]
    congr 1
    simp [edgePoint]

/-- Length of a run of equidistant points, up to the next vertex. -/
theorem taxicab_run (n : ℕ) (hn : 0 < n) (a b : ℝ × ℝ) (k m : ℕ) (hk : k + m = n) (r : List (ℝ × ℝ)) :
    taxicab ((List.range' k m).map (fun k : ℕ => edgePoint a b ((k : ℝ) / n)) ++ b :: r) =
      (m : ℝ) / n * (|b.1 - a.1| + |b.2 - a.2|) + taxicab (b :: r) := by
  have hn0 : (n : ℝ) ≠ 0 := by positivity
  induction m generalizing k with
  | zero => simp
  | succ m ih =>
    have step : ∀ (c : ℝ × ℝ) (l : List (ℝ × ℝ)), c = edgePoint a b (((k + 1 : ℕ) : ℝ) / n) →
        taxicab (edgePoint a b ((k : ℝ) / n) :: c :: l) =
          1 / n * (|b.1 - a.1| + |b.2 - a.2|) + taxicab (c :: l) := by
      intro c l hc
      simp only [taxicab]
      have e1 : c.1 - (edgePoint a b ((k : ℝ) / n)).1 = (b.1 - a.1) / n := by
        rw [hc]; simp only [edgePoint]; push_cast; field_simp; ring
      have e2 : c.2 - (edgePoint a b ((k : ℝ) / n)).2 = (b.2 - a.2) / n := by
        rw [hc]; simp only [edgePoint]; push_cast; field_simp; ring
      rw [e1, e2, abs_div, abs_div, Nat.abs_cast]
      ring
    rw [List.range'_succ, List.map_cons, List.cons_append]
    have hih := ih (k + 1) (by omega)
    cases m with
    | zero =>
      simp only [List.range'_zero, List.map_nil, List.nil_append] at hih ⊢
      rw [step b r]
      · simp
      · have : ((k + 1 : ℕ) : ℝ) / n = 1 := by
          rw [show k + 1 = n by omega]; field_simp
        rw [this]
        have e : ∀ x y : ℝ, x + 1 * (y - x) = y := fun x y => by ring
        simp only [edgePoint, e]
    | succ m =>
      rw [List.range'_succ, List.map_cons, List.cons_append] at hih ⊢
      rw [step _ _ rfl, hih]
      push_cast
      ring

theorem taxicab_subChain (n : ℕ) (hn : 0 < n) (a : ℝ × ℝ) (l : List (ℝ × ℝ)) :
    taxicab (subChain n a l) = taxicab (a :: l) := by
  induction l generalizing a with
  | nil => simp [subChain]
  | cons b l ih =>
    obtain ⟨r, hr⟩ := subChain_head n hn b l
    unfold subChain subEdge
    have := ih b
    rw [hr] at this ⊢
    rw [List.range_eq_range', taxicab_run n hn a b 0 n (by omega), this]
    have hn0 : (n : ℝ) ≠ 0 := by positivity
    rw [div_self hn0]
    simp only [taxicab]
    ring

theorem taxicab_edge (a : ℝ × ℝ) (l : List (ℝ × ℝ)) (e : (ℝ × ℝ) × (ℝ × ℝ))
    (he : e ∈ List.zip (a :: l) l) :
    |e.2.1 - e.1.1| ≤ taxicab (a :: l) ∧ |e.2.2 - e.1.2| ≤ taxicab (a :: l) := by
  induction l generalizing a with
  | nil => simp at he
  | cons b l ih =>
    rw [List.zip_cons_cons, List.mem_cons] at he
    simp only [taxicab]
    have := taxicab_nonneg (b :: l)
    have := abs_nonneg (b.1 - a.1)
    have := abs_nonneg (b.2 - a.2)
    rcases he with rfl | he
    · constructor <;> simp only <;> linarith
    · obtain ⟨h1, h2⟩ := ih b he
      constructor <;> linarith

theorem subChain_near (n : ℕ) (hn : 0 < n) (a : ℝ × ℝ) (l : List (ℝ × ℝ)) (e : (ℝ × ℝ) × (ℝ × ℝ))
    (he : e ∈ List.zip (a :: l) l) (t : ℝ) (t0 : 0 ≤ t) (t1 : t ≤ 1) :
    ∃ c ∈ subChain n a l, |(edgePoint e.1 e.2 t).1 - c.1| ≤ |e.2.1 - e.1.1| / n ∧
      |(edgePoint e.1 e.2 t).2 - c.2| ≤ |e.2.2 - e.1.2| / n := by
  induction l generalizing a with
  | nil => simp at he
  | cons b l ih =>
    rw [List.zip_cons_cons, List.mem_cons] at he
    rcases he with rfl | he
    · have hn0 : (0 : ℝ) < n := by exact_mod_cast hn
      have key : ∃ k : ℕ, k < n ∧ |t - (k : ℝ) / n| ≤ 1 / n := by
        by_cases h : t = 1
        · refine ⟨n - 1, by omega, ?_⟩
          have : ((n - 1 : ℕ) : ℝ) = n - 1 := by rw [Nat.cast_sub (by omega)]; simp
          rw [h, this]
          have : (1 : ℝ) - (n - 1) / n = 1 / n := by field_simp; ring
          rw [this, abs_of_nonneg (by positivity)]
        · have hlt : t < 1 := lt_of_le_of_ne t1 h
          refine ⟨⌊t * n⌋₊, ?_, ?_⟩
          · rw [Nat.floor_lt (by positivity)]
            nlinarith
          · have h1 := Nat.floor_le (a := t * n) (by positivity)
            have h2 := Nat.lt_floor_add_one (t * n)
            have e : t - (⌊t * n⌋₊ : ℝ) / n = (t * n - ⌊t * n⌋₊) / n := by field_simp
            rw [e, abs_of_nonneg (div_nonneg (by linarith) hn0.le)]
            gcongr
            linarith
      obtain ⟨k, hk, hd⟩ := key
      refine ⟨edgePoint a b ((k : ℝ) / n), ?_, ?_, ?_⟩
      · unfold subChain subEdge
        refine List.mem_append_left _ (List.mem_map.2 ⟨k, List.mem_range.2 hk, rfl⟩)
      · have : (edgePoint a b t).1 - (edgePoint a b ((k : ℝ) / n)).1 = (t - (k : ℝ) / n) * (b.1 - a.1) := by
          simp only [edgePoint]; ring
        rw [this, abs_mul]
        calc |t - (k : ℝ) / n| * |b.1 - a.1| ≤ 1 / n * |b.1 - a.1| := by gcongr
          _ = |b.1 - a.1| / n := by ring
      · have : (edgePoint a b t).2 - (edgePoint a b ((k : ℝ) / n)).2 = (t - (k : ℝ) / n) * (b.2 - a.2) := by
          simp only [edgePoint]; ring
        rw [this, abs_mul]
        calc |t - (k : ℝ) / n| * |b.2 - a.2| ≤ 1 / n * |b.2 - a.2| := by gcongr
          _ = |b.2 - a.2| / n := by ring
    · obtain ⟨c, hc, h⟩ := ih b he
      exact ⟨c, by unfold subChain; exact List.mem_append_right _ hc, h⟩

/-- Points within `s / 2`, along both axes, of the polygonal line `a, l`. -/
def nearLine (s : ℝ) (a : ℝ × ℝ) (l : List (ℝ × ℝ)) : Set (ℝ × ℝ) :=
  {q | ∃ e ∈ List.zip (a :: l) l, ∃ t, 0 ≤ t ∧ t ≤ 1 ∧
    |(edgePoint e.1 e.2 t).1 - q.1| ≤ s / 2 ∧ |(edgePoint e.1 e.2 t).2 - q.2| ≤ s / 2}

theorem nearLine_volume (s : ℝ) (hs : 0 ≤ s) (a : ℝ × ℝ) (l : List (ℝ × ℝ)) :
    volume (nearLine s a l) ≤ ENNReal.ofReal (s ^ 2 + s * taxicab (a :: l)) := by
  set ℓ := taxicab (a :: l) with hℓ
  have h0 : 0 ≤ ℓ := taxicab_nonneg _
  have key : ∀ n : ℕ, 0 < n → volume (nearLine s a l) ≤
      ENNReal.ofReal ((s + 2 * ℓ / n) ^ 2 + (s + 2 * ℓ / n) * ℓ) := by
    intro n hn
    have hn0 : (0 : ℝ) < n := by exact_mod_cast hn
    have hs' : 0 ≤ s + 2 * ℓ / n := by positivity
    refine (measure_mono (t := ⋃ c ∈ subChain n a l, square (s + 2 * ℓ / n) c) ?_).trans ?_
    · rintro q ⟨e, he, t, t0, t1, h1, h2⟩
      obtain ⟨c, hc, g1, g2⟩ := subChain_near n hn a l e he t t0 t1
      obtain ⟨b1, b2⟩ := taxicab_edge a l e he
      simp only [Set.mem_iUnion, exists_prop]
      refine ⟨c, hc, ?_⟩
      have g1 : |(edgePoint e.1 e.2 t).1 - c.1| ≤ ℓ / n := g1.trans (by gcongr)
      have g2 : |(edgePoint e.1 e.2 t).2 - c.2| ≤ ℓ / n := g2.trans (by gcongr)
      have e' : (s + 2 * ℓ / n) / 2 = s / 2 + ℓ / n := by ring
      rw [abs_le] at h1 h2 g1 g2
      unfold square
      rw [e']
      refine ⟨⟨?_, ?_⟩, ?_, ?_⟩ <;> linarith [h1.1, h1.2, h2.1, h2.2, g1.1, g1.2, g2.1, g2.2]
    · rw [hℓ, ← taxicab_subChain n hn a l]
      exact squares_volume _ (by rw [taxicab_subChain n hn a l]; exact hs') _
  have lim : Tendsto (fun n : ℕ => ENNReal.ofReal ((s + 2 * ℓ / n) ^ 2 + (s + 2 * ℓ / n) * ℓ)) atTop
      (𝓝 (ENNReal.ofReal (s ^ 2 + s * ℓ))) := by
    apply (ENNReal.continuous_ofReal.tendsto _).comp
    have h1 : Tendsto (fun n : ℕ => s + 2 * ℓ / (n : ℝ)) atTop (𝓝 (s + 0)) :=
      tendsto_const_nhds.add (tendsto_const_div_atTop_nhds_zero_nat _)
    rw [add_zero] at h1
    exact (h1.pow 2).add (h1.mul_const ℓ)
  refine ge_of_tendsto lim ?_
  filter_upwards [eventually_gt_atTop 0] with n hn
  exact key n hn

end TNS
