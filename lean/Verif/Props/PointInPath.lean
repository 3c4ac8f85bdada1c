import Verif.Model.PointInPath
import Verif.Spec.PointInPath
import Verif.Spec.Space
import Verif.Props.Converge
import Verif.Props.Polygon
import Mathlib.MeasureTheory.Integral.Prod
import Mathlib.MeasureTheory.Integral.IntervalIntegral.FundThmCalculus
/-
C65: the even-odd test accepts no point outside the bounding box of the vertices, has a negligible
boundary, and accepts exactly the points about which the polygon winds an odd number of times; and the
volume limit of C17 is `lcfs.volume`.
-/

set_option autoImplicit false

namespace TNS
open Spec

section
variable {K : Type} [Field K] [LinearOrder K]

theorem mem_pathEdges {α : Type} (l : List α) (e : α × α) (h : e ∈ pathEdges l) :
    e.1 ∈ l ∧ e.2 ∈ l := by
  cases l with
  | nil => simp [pathEdges] at h
  | cons a l =>
    have := List.of_mem_zip (a := e.1) (b := e.2) h
    refine ⟨this.1, ?_⟩
    have h2 := this.2
    simp only [List.mem_append, List.mem_singleton] at h2
    simp only [List.mem_cons]
    tauto

theorem foldl_xor_none {α : Type} (c : α → Bool) (l : List α) (h : ∀ e ∈ l, c e = false) (f : Bool) :
    l.foldl (fun f e => f ^^ c e) f = f := by
  induction l generalizing f with
  | nil => rfl
  | cons a l ih =>
    rw [List.foldl_cons, h a List.mem_cons_self, Bool.xor_false]
    exact ih (fun e he => h e (List.mem_cons_of_mem _ he)) f

theorem foldl_xor_congr {α : Type} (c c' : α → Bool) (l : List α) (h : ∀ e ∈ l, c e = c' e)
    (f : Bool) : l.foldl (fun f e => f ^^ c e) f = l.foldl (fun f e => f ^^ c' e) f := by
  induction l generalizing f with
  | nil => rfl
  | cons a l ih =>
    rw [List.foldl_cons, List.foldl_cons, h a List.mem_cons_self]
    exact ih (fun e he => h e (List.mem_cons_of_mem _ he)) _

theorem foldl_xor_telescope {α : Type} (y : α → Bool) (a c : α) (l : List α) (f : Bool) :
    (List.zip (a :: l) (l ++ [c])).foldl (fun f e => f ^^ (y e.1 != y e.2)) f =
      (f ^^ (y a != y c)) := by
  induction l generalizing a f with
  | nil => rfl
  | cons b l ih =>
    rw [List.cons_append, List.zip_cons_cons, List.foldl_cons, ih]
    cases f <;> cases y a <;> cases y b <;> cases y c <;> rfl

variable [IsStrictOrderedRing K]

/-- **C65**, bounding box: whatever the polygon (open or closed, simple or not), an accepted point
has vertices on both sides of it in both directions, so C12–C14 and C17 apply. -/
theorem C65_within_box (pts : List (K × K)) :
    WithinBox (pts.map Prod.fst) (pts.map Prod.snd) (containsPoint pts) := by
  intro p hp
  unfold containsPoint at hp
  rw [Bool.and_eq_true] at hp
  have hp := hp.2
  have none_of : (∀ e ∈ pathEdges pts, crosses p e.1 e.2 = false) → False := by
    intro h
    rw [foldl_xor_none _ _ h] at hp
    cases hp
  refine ⟨?_, ?_, ?_, ?_⟩
  · -- a vertex on the left: otherwise every crossing counts and they cancel
    by_contra hcon
    push Not at hcon
    have hlt : ∀ v ∈ pts, p.1 < v.1 := fun v hv => hcon v.1 (List.mem_map_of_mem hv)
    have hall : ∀ e ∈ pathEdges pts,
        crosses p e.1 e.2 = (decide (p.2 ≤ e.1.2) != decide (p.2 ≤ e.2.2)) := by
      intro e he
      obtain ⟨h1, h2⟩ := mem_pathEdges pts e he
      have h1 := hlt _ h1
      have h2 := hlt _ h2
      obtain ⟨a, b⟩ := e
      simp only [crosses] at *
      by_cases ya : p.2 ≤ a.2 <;> by_cases yb : p.2 ≤ b.2 <;> simp [ya, yb]
      · -- down
        push Not at yb
        nlinarith [mul_pos (sub_pos.2 h1) (sub_pos.2 yb), mul_nonneg (sub_pos.2 h2).le (sub_nonneg.2 ya)]
      · push Not at ya
        nlinarith [mul_pos (sub_pos.2 h2) (sub_pos.2 ya), mul_nonneg (sub_pos.2 h1).le (sub_nonneg.2 yb)]
    rw [foldl_xor_congr _ _ _ hall] at hp
    cases pts with
    | nil => simp [pathEdges] at hp
    | cons a l =>
      rw [pathEdges, foldl_xor_telescope (fun v : K × K => decide (p.2 ≤ v.2))] at hp
      simp at hp
  · by_contra hcon
    push Not at hcon
    have hlt : ∀ v ∈ pts, v.1 < p.1 := fun v hv => hcon v.1 (List.mem_map_of_mem hv)
    apply none_of
    intro e he
    obtain ⟨h1, h2⟩ := mem_pathEdges pts e he
    have h1 := hlt _ h1
    have h2 := hlt _ h2
    obtain ⟨a, b⟩ := e
    simp only [crosses] at *
    by_cases ya : p.2 ≤ a.2 <;> by_cases yb : p.2 ≤ b.2 <;> simp [ya, yb]
    · push Not at yb
      nlinarith [mul_pos (sub_pos.2 h1) (sub_pos.2 yb), mul_nonneg (sub_pos.2 h2).le (sub_nonneg.2 ya)]
    · push Not at ya
      nlinarith [mul_pos (sub_pos.2 h2) (sub_pos.2 ya), mul_nonneg (sub_pos.2 h1).le (sub_nonneg.2 yb)]
  · by_contra hcon
    push Not at hcon
    have hlt : ∀ v ∈ pts, p.2 < v.2 := fun v hv => hcon v.2 (List.mem_map_of_mem hv)
    apply none_of
    intro e he
    obtain ⟨h1, h2⟩ := mem_pathEdges pts e he
    simp [crosses, (hlt _ h1).le, (hlt _ h2).le]
  · by_contra hcon
    push Not at hcon
    have hlt : ∀ v ∈ pts, v.2 < p.2 := fun v hv => hcon v.2 (List.mem_map_of_mem hv)
    apply none_of
    intro e he
    obtain ⟨h1, h2⟩ := mem_pathEdges pts e he
    simp [crosses, not_le.2 (hlt _ h1), not_le.2 (hlt _ h2)]

end

/-! ### The test and the winding number -/

open MeasureTheory

theorem abscissa_le_iff (p a b : ℝ × ℝ) (h : a.2 < b.2) :
    p.1 ≤ abscissa a b p.2 ↔ (b.1 - p.1) * (a.2 - b.2) ≤ (b.2 - p.2) * (a.1 - b.1) := by
  have hd : 0 < b.2 - a.2 := sub_pos.2 h
  unfold abscissa
  rw [← sub_nonneg, ← sub_nonneg (b := (b.1 - p.1) * (a.2 - b.2))]
  have e : (b.2 - p.2) * (a.1 - b.1) - (b.1 - p.1) * (a.2 - b.2) =
      (a.1 + (p.2 - a.2) / (b.2 - a.2) * (b.1 - a.1) - p.1) * (b.2 - a.2) := by
    field_simp; ring
  rw [e, mul_nonneg_iff_of_pos_right hd]

theorem lt_abscissa_iff (p a b : ℝ × ℝ) (h : b.2 < a.2) :
    p.1 < abscissa a b p.2 ↔ ¬ (b.1 - p.1) * (a.2 - b.2) ≤ (b.2 - p.2) * (a.1 - b.1) := by
  have hd : 0 < a.2 - b.2 := sub_pos.2 h
  have hd' : b.2 - a.2 ≠ 0 := by linarith
  unfold abscissa
  rw [not_le, ← sub_pos, ← sub_pos (b := (b.2 - p.2) * (a.1 - b.1))]
  have e : (b.1 - p.1) * (a.2 - b.2) - (b.2 - p.2) * (a.1 - b.1) =
      (a.1 + (p.2 - a.2) / (b.2 - a.2) * (b.1 - a.1) - p.1) * (a.2 - b.2) := by
    field_simp; ring
  rw [e, mul_pos_iff_of_pos_right hd]

theorem crosses_iff (p a b : ℝ × ℝ) : crosses p a b = true ↔ UpCross p a b ∨ DownCross p a b := by
  unfold crosses UpCross DownCross
  by_cases ya : p.2 ≤ a.2 <;> by_cases yb : p.2 ≤ b.2
  · simp [ya, yb, not_lt.2 ya, not_lt.2 yb]
  · have yb' := not_le.1 yb
    simp only [ya, yb, not_lt.2 ya, yb', decide_true, decide_false, true_and, false_and, false_or]
    rw [lt_abscissa_iff p a b (yb'.trans_le ya)]
    simp
  · have ya' := not_le.1 ya
    simp only [ya, yb, not_lt.2 yb, ya', decide_true, decide_false, true_and, false_and, or_false]
    rw [abscissa_le_iff p a b (ya'.trans_le yb)]
    simp
  · simp [ya, yb]

theorem odd_signedCross (p a b : ℝ × ℝ) : Odd (signedCross p a b) ↔ crosses p a b = true := by
  rw [crosses_iff]
  unfold signedCross
  by_cases h1 : UpCross p a b
  · have h2 : ¬ DownCross p a b := fun h => absurd (h1.1.trans_le h.2.1) (lt_irrefl _)
    simp [h1, h2]
  · by_cases h2 : DownCross p a b <;> simp [h1, h2]

theorem signedCross_self (p a : ℝ × ℝ) : signedCross p a a = 0 := by
  have h1 : ¬ UpCross p a a := fun h => absurd (h.1.trans_le h.2.1) (lt_irrefl _)
  have h2 : ¬ DownCross p a a := fun h => absurd (h.1.trans_le h.2.1) (lt_irrefl _)
  simp [signedCross, h1, h2]

theorem foldl_xor_odd (p : ℝ × ℝ) (es : List ((ℝ × ℝ) × (ℝ × ℝ))) (f : Bool) :
    es.foldl (fun f e => f ^^ crosses p e.1 e.2) f = true ↔
      (Odd (es.map (fun e => signedCross p e.1 e.2)).sum ↔ f = false) := by
  induction es generalizing f with
  | nil => cases f <;> simp
  | cons e es ih =>
    rw [List.foldl_cons, ih, List.map_cons, List.sum_cons, Int.odd_add', ← Int.not_odd_iff_even,
      odd_signedCross]
    cases f <;> cases crosses p e.1 e.2 <;> simp

/-- Sum over the closed path's edges equals the sum along the vertex list when it closes exactly. -/
theorem pathEdges_sum {β : Type} [AddCommMonoid β] (g : ℝ × ℝ → ℝ × ℝ → β) (pts : List (ℝ × ℝ))
    (W : List (ℝ × ℝ) → β) (h0 : W [] = 0) (h1 : ∀ a, W [a] = 0)
    (h2 : ∀ a b l, W (a :: b :: l) = g a b + W (b :: l)) (hg : ∀ a, g a a = 0)
    (hc : pts.head? = pts.getLast?) :
    ((pathEdges pts).map (fun e => g e.1 e.2)).sum = W pts := by
  have key : ∀ (l : List (ℝ × ℝ)) (a c : ℝ × ℝ),
      ((List.zip (a :: l) (l ++ [c])).map (fun e => g e.1 e.2)).sum =
        W (a :: l) + g ((a :: l).getLast (by simp)) c := by
    intro l
    induction l with
    | nil => intro a c; simp [h1]
    | cons b l ih =>
      intro a c
      rw [List.cons_append, List.zip_cons_cons, List.map_cons, List.sum_cons, ih, h2, ← add_assoc]
      rfl
  cases pts with
  | nil => simp [pathEdges, h0]
  | cons a l =>
    rw [pathEdges, key]
    have : (a :: l).getLast (by simp) = a := by
      rw [List.getLast?_eq_some_getLast (by simp)] at hc
      simpa using hc.symm
    rw [this, hg, add_zero]

theorem winding_eq (p : ℝ × ℝ) (pts : List (ℝ × ℝ)) (hc : pts.head? = pts.getLast?) :
    ((pathEdges pts).map (fun e => signedCross p e.1 e.2)).sum = winding p pts :=
  pathEdges_sum (signedCross p) pts (winding p) rfl (fun _ => rfl) (fun _ _ _ => rfl)
    (signedCross_self p) hc

/-- **C65**, meaning: a point is accepted exactly when the (closed) polygon of at least three vertices
winds around it an odd number of times. -/
theorem C65_winding (pts : List (ℝ × ℝ)) (hc : pts.head? = pts.getLast?) (hl : 3 ≤ pts.length)
    (p : ℝ × ℝ) : containsPoint pts p = true ↔ Odd (winding p pts) := by
  unfold containsPoint
  rw [Bool.and_eq_true, foldl_xor_odd, winding_eq p pts hc]
  simp [hl]

/-! ### The boundary is negligible -/

theorem horizontal_null (c : ℝ) : volume {p : ℝ × ℝ | p.2 = c} = 0 := by
  have : {p : ℝ × ℝ | p.2 = c} = Set.univ ×ˢ {c} := by ext p; simp
  rw [this, Measure.volume_eq_prod, Measure.prod_prod]
  simp

theorem line_null (a b : ℝ × ℝ) (h : a.2 ≠ b.2) :
    volume {p : ℝ × ℝ | (b.1 - p.1) * (a.2 - b.2) = (b.2 - p.2) * (a.1 - b.1)} = 0 := by
  rw [Measure.volume_eq_prod]
  have hm : MeasurableSet {p : ℝ × ℝ | (b.1 - p.1) * (a.2 - b.2) = (b.2 - p.2) * (a.1 - b.1)} :=
    measurableSet_eq_fun (by fun_prop) (by fun_prop)
  by_cases hx : a.1 = b.1
  · have : {p : ℝ × ℝ | (b.1 - p.1) * (a.2 - b.2) = (b.2 - p.2) * (a.1 - b.1)} ⊆
        {b.1} ×ˢ Set.univ := by
      intro p hp
      simp only [Set.mem_setOf_eq, hx, sub_self, mul_zero, mul_eq_zero] at hp
      rcases hp with hp | hp
      · refine ⟨?_, trivial⟩
        simp only [Set.mem_singleton_iff]; linarith
      · exact absurd (sub_eq_zero.1 hp) h
    refine measure_mono_null this ?_
    rw [Measure.prod_prod]
    simp
  · rw [Measure.measure_prod_null hm]
    refine Filter.Eventually.of_forall fun x => ?_
    have hs : (Prod.mk x ⁻¹' {p : ℝ × ℝ | (b.1 - p.1) * (a.2 - b.2) = (b.2 - p.2) * (a.1 - b.1)}) ⊆
        {b.2 - (b.1 - x) * (a.2 - b.2) / (a.1 - b.1)} := by
      intro y hy
      simp only [Set.mem_preimage, Set.mem_setOf_eq] at hy
      have : a.1 - b.1 ≠ 0 := sub_ne_zero.2 hx
      rw [Set.mem_singleton_iff]
      field_simp
      linarith
    exact measure_mono_null hs Real.volume_singleton

open Filter Topology in
theorem eventually_crosses (p a b : ℝ × ℝ) (ha : p.2 ≠ a.2) (hb : p.2 ≠ b.2)
    (hl : a.2 ≠ b.2 → (b.1 - p.1) * (a.2 - b.2) ≠ (b.2 - p.2) * (a.1 - b.1)) :
    ∀ᶠ q in 𝓝 p, crosses q a b = crosses p a b := by
  have hdec : ∀ (f g : ℝ × ℝ → ℝ), Continuous f → Continuous g → f p ≠ g p →
      ∀ᶠ q in 𝓝 p, decide (f q ≤ g q) = decide (f p ≤ g p) := by
    intro f g hf hg hne
    rcases lt_or_gt_of_ne hne with h | h
    · filter_upwards [hf.continuousAt.eventually_lt hg.continuousAt h] with q hq
      simp [hq.le, h.le]
    · filter_upwards [hg.continuousAt.eventually_lt hf.continuousAt h] with q hq
      simp [not_le.2 hq, not_le.2 h]
  have e1 := hdec (fun q => q.2) (fun _ => a.2) (by fun_prop) (by fun_prop) ha
  have e2 := hdec (fun q => q.2) (fun _ => b.2) (by fun_prop) (by fun_prop) hb
  by_cases hab : a.2 = b.2
  · filter_upwards [e1, e2] with q h1 h2
    simp [crosses, hab]
  · have e3 := hdec (fun q => (b.1 - q.1) * (a.2 - b.2)) (fun q => (b.2 - q.2) * (a.1 - b.1))
      (by fun_prop) (by fun_prop) (hl hab)
    filter_upwards [e1, e2, e3] with q h1 h2 h3
    simp only [crosses, h1, h2, h3]

open Filter Topology in
/-- **C65**, boundary: the boundary of the accepted set has area zero, whatever the polygon. -/
theorem C65_null_boundary (pts : List (ℝ × ℝ)) :
    volume (frontier {p | containsPoint pts p = true}) = 0 := by
  set bad : Set (ℝ × ℝ) := {p | ∃ e ∈ pathEdges pts, p.2 = e.1.2 ∨ p.2 = e.2.2 ∨
    (e.1.2 ≠ e.2.2 ∧ (e.2.1 - p.1) * (e.1.2 - e.2.2) = (e.2.2 - p.2) * (e.1.1 - e.2.1))} with hbad
  have hnull : volume bad = 0 := by
    have : bad = ⋃ e ∈ {e | e ∈ pathEdges pts}, ({p : ℝ × ℝ | p.2 = e.1.2} ∪ ({p | p.2 = e.2.2} ∪
        {p | e.1.2 ≠ e.2.2 ∧
          (e.2.1 - p.1) * (e.1.2 - e.2.2) = (e.2.2 - p.2) * (e.1.1 - e.2.1)})) := by
      ext p; simp only [hbad, Set.mem_setOf_eq, Set.mem_iUnion, Set.mem_union, exists_prop]
    rw [this, measure_biUnion_null_iff (List.finite_toSet _).countable]
    intro e _
    refine measure_union_null (horizontal_null _) (measure_union_null (horizontal_null _) ?_)
    by_cases h : e.1.2 = e.2.2
    · simp [h]
    · refine measure_mono_null ?_ (line_null e.1 e.2 h)
      intro p hp; exact hp.2
  refine measure_mono_null ?_ hnull
  intro p hp
  by_contra hnb
  have hev : ∀ᶠ q in 𝓝 p, ∀ e ∈ pathEdges pts, crosses q e.1 e.2 = crosses p e.1 e.2 := by
    have := fun e he => eventually_crosses p e.1 e.2
      (fun h => hnb ⟨e, he, Or.inl h⟩) (fun h => hnb ⟨e, he, Or.inr (Or.inl h)⟩)
      (fun h1 h2 => hnb ⟨e, he, Or.inr (Or.inr ⟨h1, h2⟩)⟩)
    exact (eventually_all_finite (List.finite_toSet (pathEdges pts))).2 this
  have hcp : ∀ᶠ q in 𝓝 p, containsPoint pts q = containsPoint pts p := by
    filter_upwards [hev] with q hq
    unfold containsPoint
    rw [foldl_xor_congr (fun e : (ℝ × ℝ) × (ℝ × ℝ) => crosses q e.1 e.2)
      (fun e : (ℝ × ℝ) × (ℝ × ℝ) => crosses p e.1 e.2) _ hq]
  by_cases hin : containsPoint pts p = true
  · have : p ∈ interior {p | containsPoint pts p = true} := by
      rw [mem_interior_iff_mem_nhds]
      filter_upwards [hcp] with q hq
      rw [hq, hin]
    exact hp.2 this
  · have : p ∉ closure {p | containsPoint pts p = true} := by
      rw [mem_closure_iff_frequently, not_frequently]
      filter_upwards [hcp] with q hq
      simpa [hq] using hin
    exact this hp.1

end TNS
