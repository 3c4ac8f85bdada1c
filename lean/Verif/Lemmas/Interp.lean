import Verif.Model.Profile
import Mathlib.Tactic.Linarith
import Mathlib.Tactic.FieldSimp
import Mathlib.Tactic.Ring
import Mathlib.Topology.Order.Basic
import Mathlib.Topology.Algebra.Order.Field
import Mathlib.Topology.ContinuousOn
/-
Linear interpolation in a sorted table.
-/

set_option autoImplicit false
set_option linter.unusedSectionVars false

namespace TNS
variable {K : Type} [Field K] [LinearOrder K] [IsStrictOrderedRing K]

/-- Strictly increasing abscissae. -/
abbrev SortedTable (t : List (K × K)) : Prop := t.Pairwise (fun p q => p.1 < q.1)

theorem mergeSort_sorted (t : List (K × K)) (h : SortedTable t) :
    t.mergeSort (fun p q => decide (p.1 ≤ q.1)) = t :=
  List.mergeSort_of_pairwise (h.imp (fun h => by simpa using h.le))

theorem npInterp_head (p : K × K) (l : List (K × K)) (h : SortedTable (p :: l)) :
    npInterp (p :: l) p.1 = p.2 := by
  cases l with
  | nil => rfl
  | cons q l =>
    have : p.1 < q.1 := (List.pairwise_cons.1 h).1 q (by simp)
    simp [npInterp, this]

theorem npInterp_seg (l : List (K × K)) (p q : K × K) (r : List (K × K))
    (h : SortedTable (l ++ p :: q :: r)) (x : K) (h1 : p.1 ≤ x) (h2 : x ≤ q.1) :
    npInterp (l ++ p :: q :: r) x = p.2 + (q.2 - p.2) * ((x - p.1) / (q.1 - p.1)) := by
  induction l with
  | nil =>
    rw [List.nil_append] at h ⊢
    have hpq : p.1 < q.1 := (List.pairwise_cons.1 h).1 q (by simp)
    rw [npInterp]
    split_ifs with a b
    · exact absurd b (not_lt.2 h1)
    · have : q.1 - p.1 ≠ 0 := by linarith
      ring
    · have hx : x = q.1 := le_antisymm h2 (not_lt.1 a)
      rw [hx, npInterp_head q r (List.pairwise_cons.1 h).2]
      have : q.1 - p.1 ≠ 0 := (sub_pos.2 hpq).ne'
      field_simp
      ring
  | cons a l ih =>
    rw [List.cons_append] at h ⊢
    obtain ⟨ha, hl⟩ := List.pairwise_cons.1 h
    obtain ⟨b, t, e⟩ : ∃ b t, l ++ p :: q :: r = b :: t := by cases l <;> exact ⟨_, _, rfl⟩
    have hb : b.1 ≤ p.1 := by
      cases l with
      | nil => simp at e; rw [← e.1]
      | cons c l =>
        simp at e
        rw [← e.1]
        exact ((List.pairwise_cons.1 hl).1 p (by simp)).le
    have ih := ih hl
    rw [e] at ih ⊢
    rw [npInterp, if_neg (not_lt.2 (hb.trans h1)), ih]

theorem npInterp_single_le (p : K × K) (l : List (K × K)) (h : SortedTable (p :: l)) (x : K)
    (hx : x ≤ p.1) : npInterp (p :: l) x = p.2 := by
  cases l with
  | nil => rfl
  | cons q l =>
    have hpq : p.1 < q.1 := (List.pairwise_cons.1 h).1 q (by simp)
    rw [npInterp, if_pos (hx.trans_lt hpq)]
    split_ifs with a
    · rfl
    · have : x = p.1 := le_antisymm hx (not_lt.1 a)
      rw [this]; ring

/-- Every argument inside the range lies in a segment. -/
theorem exists_seg (t : List (K × K)) (h2 : 2 ≤ t.length) (a b : K × K)
    (ha : t.head? = some a) (hb : t.getLast? = some b) (x : K) (h1 : a.1 ≤ x) (hx : x ≤ b.1) :
    ∃ l p q r, t = l ++ p :: q :: r ∧ p.1 ≤ x ∧ x ≤ q.1 := by
  induction t generalizing a with
  | nil => simp at h2
  | cons c t ih =>
    simp at ha; subst ha
    cases t with
    | nil => simp at h2
    | cons d t =>
      by_cases hd : x ≤ d.1
      · exact ⟨[], c, d, t, rfl, h1, hd⟩
      · cases t with
        | nil => simp at hb; subst hb; exact absurd hx hd
        | cons e t =>
          obtain ⟨l, p, q, r, e1, e2, e3⟩ := ih (by simp) d rfl (by simpa using hb)
            (le_of_not_ge hd)
          exact ⟨c :: l, p, q, r, by rw [e1]; rfl, e2, e3⟩

theorem seg_between (u v t lo hi : K) (h0 : 0 ≤ t) (h1 : t ≤ 1) (hu : lo ≤ u) (hv : lo ≤ v)
    (hu' : u ≤ hi) (hv' : v ≤ hi) : lo ≤ u + (v - u) * t ∧ u + (v - u) * t ≤ hi := by
  have e : u + (v - u) * t = u * (1 - t) + v * t := by ring
  rw [e]
  have a := mul_le_mul_of_nonneg_right hu (sub_nonneg.2 h1)
  have b := mul_le_mul_of_nonneg_right hv h0
  have c := mul_le_mul_of_nonneg_right hu' (sub_nonneg.2 h1)
  have d := mul_le_mul_of_nonneg_right hv' h0
  constructor <;> nlinarith

theorem frac_mem (a b x : K) (hab : a < b) (h1 : a ≤ x) (h2 : x ≤ b) :
    0 ≤ (x - a) / (b - a) ∧ (x - a) / (b - a) ≤ 1 := by
  have := sub_pos.2 hab
  constructor
  · exact div_nonneg (by linarith) this.le
  · rw [div_le_one this]; linarith

theorem npInterp_bounds (t : List (K × K)) (hs : SortedTable t) (hne : t ≠ []) (lo hi : K)
    (hlo : ∀ p ∈ t, lo ≤ p.2) (hhi : ∀ p ∈ t, p.2 ≤ hi) (x : K) :
    lo ≤ npInterp t x ∧ npInterp t x ≤ hi := by
  induction t with
  | nil => exact absurd rfl hne
  | cons p t ih =>
    cases t with
    | nil => exact ⟨hlo p (by simp), hhi p (by simp)⟩
    | cons q t =>
      have hpq : p.1 < q.1 := (List.pairwise_cons.1 hs).1 q (by simp)
      rw [npInterp]
      split_ifs with a b
      · exact ⟨hlo p (by simp), hhi p (by simp)⟩
      · obtain ⟨f0, f1⟩ := frac_mem p.1 q.1 x hpq (not_lt.1 b) a.le
        have := seg_between p.2 q.2 _ lo hi f0 f1 (hlo p (by simp)) (hlo q (by simp))
          (hhi p (by simp)) (hhi q (by simp))
        have e : (q.2 - p.2) / (q.1 - p.1) * (x - p.1) + p.2 =
          p.2 + (q.2 - p.2) * ((x - p.1) / (q.1 - p.1)) := by ring
        rw [e]; exact this
      · exact ih (List.pairwise_cons.1 hs).2 (by simp) (fun p hp => hlo p (List.mem_cons_of_mem _ hp))
          (fun p hp => hhi p (List.mem_cons_of_mem _ hp))

/-- Increasing data give an increasing interpolant. -/
theorem npInterp_mono (t : List (K × K)) (hs : SortedTable t)
    (hm : t.Pairwise (fun p q => p.2 ≤ q.2)) (x y : K) (hxy : x ≤ y) :
    npInterp t x ≤ npInterp t y := by
  induction t with
  | nil => exact le_refl _
  | cons p t ih =>
    cases t with
    | nil => exact le_refl _
    | cons q t =>
      have hpq : p.1 < q.1 := (List.pairwise_cons.1 hs).1 q (by simp)
      have hv : p.2 ≤ q.2 := (List.pairwise_cons.1 hm).1 q (by simp)
      have hq : ∀ z, q.2 ≤ npInterp (q :: t) z := by
        intro z
        obtain ⟨hi, hhi⟩ : ∃ hi, ∀ p ∈ q :: t, p.2 ≤ hi := by
          refine ⟨((q :: t).map (·.2)).foldr max q.2, ?_⟩
          intro p hp
          have : ∀ (l : List K) (c a : K), a ∈ l → a ≤ l.foldr max c := by
            intro l c
            induction l with
            | nil => intro a h; simp at h
            | cons b l ih =>
              intro a h
              rcases List.mem_cons.1 h with rfl | h
              · exact le_max_left _ _
              · exact (ih a h).trans (le_max_right _ _)
          exact this _ _ _ (List.mem_map.2 ⟨p, hp, rfl⟩)
        refine (npInterp_bounds (q :: t) (List.pairwise_cons.1 hs).2 (by simp) q.2 hi ?_ hhi z).1
        intro p hp
        rcases List.mem_cons.1 hp with rfl | hp
        · exact le_refl _
        · exact (List.pairwise_cons.1 (List.pairwise_cons.1 hm).2).1 p hp
      have hs1 : 0 ≤ (q.2 - p.2) / (q.1 - p.1) := div_nonneg (by linarith) (by linarith)
      have key : ∀ z, z < q.1 → ¬ z < p.1 →
          (q.2 - p.2) / (q.1 - p.1) * (z - p.1) + p.2 ≤ q.2 := by
        intro z h1 h2
        obtain ⟨f0, f1⟩ := frac_mem p.1 q.1 z hpq (not_lt.1 h2) h1.le
        have := (seg_between p.2 q.2 _ p.2 q.2 f0 f1 (le_refl _) hv hv (le_refl _)).2
        have e : (q.2 - p.2) / (q.1 - p.1) * (z - p.1) + p.2 =
          p.2 + (q.2 - p.2) * ((z - p.1) / (q.1 - p.1)) := by ring
        rw [e]; exact this
      have ih := ih (List.pairwise_cons.1 hs).2 (List.pairwise_cons.1 hm).2
      rw [npInterp, npInterp]
      by_cases hy : y < q.1
      · rw [if_pos hy, if_pos (hxy.trans_lt hy)]
        by_cases hx : x < p.1
        · rw [if_pos hx]
          split_ifs with hy'
          · exact le_refl _
          · have := mul_nonneg hs1 (sub_nonneg.2 (not_lt.1 hy')); linarith
        · rw [if_neg hx, if_neg (fun h => hx (hxy.trans_lt h))]
          have := mul_le_mul_of_nonneg_left (sub_le_sub_right hxy p.1) hs1
          linarith
      · rw [if_neg hy]
        by_cases hx : x < q.1
        · rw [if_pos hx]
          split_ifs with hx'
          · exact hv.trans (hq y)
          · exact (key x hx hx').trans (hq y)
        · rw [if_neg hx]; exact ih

theorem npInterp_scale (t : List (K × K)) (c x : K) :
    npInterp (t.map (fun p => (p.1, c * p.2))) x = c * npInterp t x := by
  induction t with
  | nil => simp [npInterp]
  | cons p t ih =>
    cases t with
    | nil => rfl
    | cons q t =>
      simp only [List.map_cons] at ih ⊢
      rw [npInterp, npInterp, ih]
      simp only
      split_ifs
      · rfl
      · ring
      · rfl

theorem interp1d_scale (t : List (K × K)) (c x : K) :
    interp1d (t.map (fun p => (p.1, c * p.2))) x = (interp1d t x).map (c * ·) := by
  unfold interp1d
  have e : (t.map (fun p => (p.1, c * p.2))).mergeSort (fun p q => decide (p.1 ≤ q.1)) =
      (t.mergeSort (fun p q => decide (p.1 ≤ q.1))).map (fun p => (p.1, c * p.2)) :=
    (List.map_mergeSort (f := fun p : K × K => (p.1, c * p.2))
      (r := fun p q => decide (p.1 ≤ q.1)) (s := fun p q => decide (p.1 ≤ q.1))
      (fun a _ b _ => rfl)).symm
  simp only [e, List.head?_map, List.getLast?_map, npInterp_scale]
  cases (t.mergeSort (fun p q => decide (p.1 ≤ q.1))).head? with
  | none => rfl
  | some a =>
    cases (t.mergeSort (fun p q => decide (p.1 ≤ q.1))).getLast? with
    | none => rfl
    | some b => simp only [Option.map_some]; split_ifs <;> rfl

theorem npInterp_continuous (t : List (ℝ × ℝ)) (hs : SortedTable t) : Continuous (npInterp t) := by
  induction t with
  | nil => exact continuous_const
  | cons p t ih =>
    cases t with
    | nil => exact continuous_const
    | cons q t =>
      have hpq : p.1 < q.1 := (List.pairwise_cons.1 hs).1 q (by simp)
      have ih := ih (List.pairwise_cons.1 hs).2
      have e : npInterp (p :: q :: t) = fun x => if q.1 ≤ x then npInterp (q :: t) x else
          (if p.1 ≤ x then (q.2 - p.2) / (q.1 - p.1) * (x - p.1) + p.2 else p.2) := by
        funext x
        rw [npInterp]
        by_cases h : x < q.1
        · rw [if_pos h, if_neg (not_le.2 h)]
          by_cases h' : x < p.1
          · rw [if_pos h', if_neg (not_le.2 h')]
          · rw [if_neg h', if_pos (not_lt.1 h')]
        · rw [if_neg h, if_pos (not_lt.1 h)]
      rw [e]
      refine Continuous.if_le ih (Continuous.if_le (by fun_prop) continuous_const continuous_const
        continuous_id ?_) continuous_const continuous_id ?_
      · intro x hx; rw [← hx]; ring
      · intro x hx
        rw [← hx, npInterp_head q t (List.pairwise_cons.1 hs).2, if_pos hpq.le]
        have : q.1 - p.1 ≠ 0 := (sub_pos.2 hpq).ne'
        field_simp
        ring

end TNS
