import Verif.Props.RoundedPolygon
import Verif.Props.Rounded
/-
C103: dot products in any order, and fused ones, have the accuracy assumed.
-/

set_option autoImplicit false

namespace TNS
open Spec
noncomputable section

section
variable {A : Arith} {D : DotLib} {u : ℝ}

theorem tree_leaves_pos (t : SumTree) : 1 ≤ t.leaves.length := by
  induction t with
  | leaf x => simp [SumTree.leaves]
  | node a b iha ihb => simp only [SumTree.leaves, List.length_append]; omega

theorem abs_sum_le_sum_abs (l : List ℝ) : |l.sum| ≤ (l.map fun x => |x|).sum := by
  induction l with
  | nil => simp
  | cons a l ih =>
    simp only [List.sum_cons, List.map_cons]
    exact (abs_add_le _ _).trans (by linarith)

theorem sum_abs_nonneg (l : List ℝ) : 0 ≤ (l.map fun x => |x|).sum :=
  (abs_nonneg _).trans (abs_sum_le_sum_abs l)

/-- Adding numbers of any sign in any order. -/
theorem signedTree_err (hA : StandardModel A u) (t : SumTree) (hn : (t.leaves.length : ℝ) * u ≤ 1 / 100) :
    |t.eval A.rd - t.leaves.sum| ≤ 1.02 * (((t.leaves.length : ℝ) - 1) * u) * (t.leaves.map fun x => |x|).sum := by
  have u0 := hA.u_nonneg
  induction t with
  | leaf x => simp [SumTree.eval, SumTree.leaves]
  | node a b iha ihb =>
    have a1 : (1 : ℝ) ≤ a.leaves.length := by exact_mod_cast tree_leaves_pos a
    have b1 : (1 : ℝ) ≤ b.leaves.length := by exact_mod_cast tree_leaves_pos b
    simp only [SumTree.leaves, List.length_append, Nat.cast_add, List.sum_append, List.map_append, SumTree.eval] at hn ⊢
    have iha := iha (by nlinarith)
    have ihb := ihb (by nlinarith)
    set na := (a.leaves.length : ℝ)
    set nb := (b.leaves.length : ℝ)
    set Sa := (a.leaves.map fun x => |x|).sum
    set Sb := (b.leaves.map fun x => |x|).sum
    have Sa0 : 0 ≤ Sa := sum_abs_nonneg _
    have Sb0 : 0 ≤ Sb := sum_abs_nonneg _
    have ba : |a.leaves.sum + b.leaves.sum| ≤ Sa + Sb :=
      (abs_add_le _ _).trans (add_le_add (abs_sum_le_sum_abs _) (abs_sum_le_sum_abs _))
    have e : |a.eval A.rd + b.eval A.rd - (a.leaves.sum + b.leaves.sum)| ≤
        1.02 * ((na - 1) * u) * Sa + 1.02 * ((nb - 1) * u) * Sb := by
      rw [show a.eval A.rd + b.eval A.rd - (a.leaves.sum + b.leaves.sum) =
        (a.eval A.rd - a.leaves.sum) + (b.eval A.rd - b.leaves.sum) by ring]
      exact (abs_add_le _ _).trans (add_le_add iha ihb)
    have r := rd_absv hA (le_refl u) e ba
    refine r.trans ?_
    have ka : (na - 1) * u ≤ 1 / 100 := by nlinarith
    have kb : (nb - 1) * u ≤ 1 / 100 := by nlinarith
    have xa : u * (1.02 * ((na - 1) * u) * Sa) ≤ u * (1.02 * (1 / 100) * Sa) :=
      mul_le_mul_of_nonneg_left (mul_le_mul_of_nonneg_right (by linarith) Sa0) u0
    have xb : u * (1.02 * ((nb - 1) * u) * Sb) ≤ u * (1.02 * (1 / 100) * Sb) :=
      mul_le_mul_of_nonneg_left (mul_le_mul_of_nonneg_right (by linarith) Sb0) u0
    have y1 : 0 ≤ (na - 1) * (u * Sb) := mul_nonneg (by linarith) (by positivity)
    have y2 : 0 ≤ (nb - 1) * (u * Sa) := mul_nonneg (by linarith) (by positivity)
    have z1 : 0 ≤ u * Sa := by positivity
    have z2 : 0 ≤ u * Sb := by positivity
    norm_num at *
    nlinarith

theorem zip_rounded (hA : StandardModel A u) (a b : List ℝ) :
    |(List.zipWith (fun x y => A.rd (x * y)) a b).sum - (List.zipWith (fun x y => x * y) a b).sum| ≤
      u * (List.zipWith (fun x y => |x * y|) a b).sum ∧
    ((List.zipWith (fun x y => A.rd (x * y)) a b).map fun x => |x|).sum ≤
      (1 + u) * (List.zipWith (fun x y => |x * y|) a b).sum := by
  induction a generalizing b with
  | nil => simp
  | cons x a ih =>
    cases b with
    | nil => simp
    | cons y b =>
      obtain ⟨i1, i2⟩ := ih b
      have r := hA.rel (x * y)
      simp only [List.zipWith_cons_cons, List.sum_cons, List.map_cons]
      constructor
      · set s' := (List.zipWith (fun x y => A.rd (x * y)) a b).sum
        set s := (List.zipWith (fun x y => x * y) a b).sum
        rw [show A.rd (x * y) + s' - (x * y + s) = (A.rd (x * y) - x * y) + (s' - s) by ring]
        exact (abs_add_le _ _).trans (by linarith)
      · have : |A.rd (x * y)| ≤ (1 + u) * |x * y| := by
          have := abs_add_le (x * y) (A.rd (x * y) - x * y)
          rw [show x * y + (A.rd (x * y) - x * y) = A.rd (x * y) by ring] at this
          linarith
        linarith

theorem zip_abs_nonneg (a b : List ℝ) : 0 ≤ (List.zipWith (fun x y => |x * y|) a b).sum := by
  refine List.sum_nonneg fun z hz => ?_
  obtain ⟨i, hi, rfl⟩ := List.getElem_of_mem hz
  simp only [List.getElem_zipWith]
  exact abs_nonneg _

/-- C103.  A dot product that rounds every product and adds in any order has the accuracy assumed of `np.dot`. -/
theorem C103_dot (hA : StandardModel A u) (hD : DotsUp A.rd D) : AccurateDot D u := by
  intro a b hl hn
  have u0 := hA.u_nonneg
  by_cases ha : a = []
  · subst ha
    rw [(hD [] b hl).1 rfl]
    simp
  · obtain ⟨t, ht, e⟩ := (hD a b hl).2 ha
    have len : t.leaves.length = a.length := by rw [ht.length_eq, List.length_zipWith, ← hl, min_self]
    have n1 : (1 : ℝ) ≤ a.length := by exact_mod_cast List.length_pos_of_ne_nil ha
    have te := signedTree_err hA t (by rw [len]; exact hn)
    rw [len, ht.sum_eq, (ht.map fun x => |x|).sum_eq, ← e] at te
    obtain ⟨z1, z2⟩ := zip_rounded hA a b
    have S0 := zip_abs_nonneg a b
    set S := (List.zipWith (fun x y => |x * y|) a b).sum
    have tri := abs_sub_le (D.dot a b) (List.zipWith (fun x y => A.rd (x * y)) a b).sum (List.zipWith (fun x y => x * y) a b).sum
    set n := (a.length : ℝ)
    have k1 : 1.02 * ((n - 1) * u) * ((List.zipWith (fun x y => A.rd (x * y)) a b).map fun x => |x|).sum ≤
        1.02 * ((n - 1) * u) * ((1 + u) * S) := by
      refine mul_le_mul_of_nonneg_left z2 ?_
      have : 0 ≤ (n - 1) * u := mul_nonneg (by linarith) u0
      positivity
    have k2 : (n - 1) * u ≤ 1 / 100 := by nlinarith
    have k3 : (n - 1) * u * (u * S) ≤ 1 / 100 * (u * S) := mul_le_mul_of_nonneg_right k2 (by positivity)
    have k4 : 0 ≤ u * S := by positivity
    norm_num at *
    nlinarith

/-- Adding from left to right is one of the orders. -/
theorem leftDot_dotsUp (rd : ℝ → ℝ) : DotsUp rd (leftDot rd) := by
  intro a b hl
  obtain ⟨h0, h1⟩ := leftSum_addsUp rd
  refine ⟨fun ha => ?_, fun ha => ?_⟩
  · subst ha; exact h0
  · have : List.zipWith (fun x y => rd (x * y)) a b ≠ [] := by
      rw [ne_eq, ← List.length_eq_zero_iff, List.length_zipWith, ← hl, min_self, List.length_eq_zero_iff]
      exact ha
    exact h1 _ this

/-- C103.  So has a dot product with fused multiplications and additions. -/
theorem C103_fused (hA : StandardModel A u) : AccurateDot (fusedDot A.rd) u := by
  intro a b hl hn
  have u0 := hA.u_nonneg
  have key : ∀ (a b : List ℝ) (k : ℕ) (s' s S : ℝ), a.length = b.length → ((k + a.length : ℕ) : ℝ) * u ≤ 1 / 100 →
      |s' - s| ≤ 1.02 * ((k : ℝ) * u) * S → |s| ≤ S →
      |(List.zip a b).foldl (fun s p => A.rd (s + p.1 * p.2)) s' - (s + (List.zipWith (fun x y => x * y) a b).sum)| ≤
        1.02 * (((k + a.length : ℕ) : ℝ) * u) * (S + (List.zipWith (fun x y => |x * y|) a b).sum) := by
    intro a
    induction a with
    | nil =>
      intro b k s' s S _ _ h1 h2
      simpa using h1
    | cons x a ih =>
      intro b k s' s S hl hn h1 h2
      cases b with
      | nil => simp at hl
      | cons y b =>
        have S0 : 0 ≤ S := (abs_nonneg _).trans h2
        have bd : |s + x * y| ≤ S + |x * y| := (abs_add_le _ _).trans (by linarith)
        have e : |s' + x * y - (s + x * y)| ≤ 1.02 * ((k : ℝ) * u) * S := by
          rw [add_sub_add_right_eq_sub]; exact h1
        have r := rd_absv hA (le_refl u) e bd
        have k0 : (0 : ℝ) ≤ k := Nat.cast_nonneg _
        have ku : (k : ℝ) * u ≤ 1 / 100 := by
          refine le_trans (mul_le_mul_of_nonneg_right ?_ u0) hn
          push_cast
          have : (0 : ℝ) ≤ ((x :: a).length : ℝ) := Nat.cast_nonneg _
          linarith
        have r' : |A.rd (s' + x * y) - (s + x * y)| ≤ 1.02 * (((k + 1 : ℕ) : ℝ) * u) * (S + |x * y|) := by
          refine r.trans ?_
          push_cast
          have t0 : 0 ≤ |x * y| := abs_nonneg _
          have q1 : u * ((k : ℝ) * u * S) ≤ u * (1 / 100 * S) :=
            mul_le_mul_of_nonneg_left (mul_le_mul_of_nonneg_right ku S0) u0
          have q2 : 0 ≤ (k : ℝ) * u * |x * y| := by positivity
          have q3 : 0 ≤ u * S := by positivity
          have q4 : 0 ≤ u * |x * y| := by positivity
          norm_num at *
          nlinarith
        have := ih b (k + 1) (A.rd (s' + x * y)) (s + x * y) (S + |x * y|) (by simpa using hl)
          (by rw [List.length_cons] at hn; rw [show k + 1 + a.length = k + (a.length + 1) by omega]; exact hn) r' bd
        simp only [List.zip_cons_cons, List.foldl_cons, List.zipWith_cons_cons, List.sum_cons, List.length_cons]
        rw [show k + (a.length + 1) = k + 1 + a.length by omega, ← add_assoc, ← add_assoc]
        exact this
  have := key a b 0 0 0 0 hl (by simpa using hn) (by simp) (by simp)
  simpa [fusedDot] using this

end

/-- Left to right in binary64. -/
theorem dot_binary64 : AccurateDot (leftDot round53) ((2 : ℝ) ^ (-53 : ℤ)) := C103_dot C74_binary64 (leftDot_dotsUp _)

/-- A unit square in binary64, two metres from the axis: the hypotheses of the theorems of `RoundedPolygon` are met. -/
example : PolygonKnown ((2 : ℝ) ^ (-53 : ℤ)) (1 / 10 ^ 10) 3 1 [(2, 0), (3, 0), (3, 1), (2, 1), (2, 0)]
      [(2, 0), (3, 0), (3, 1), (2, 1), (2, 0)] ∧
    100 * areaTol (1 / 10 ^ 10) 3 1 [(2, 0), (3, 0), (3, 1), (2, 1), (2, 0)] ≤
      |contour (fun x _ => x) [(2, 0), (3, 0), (3, 1), (2, 1), (2, 0)]| := by
  refine ⟨⟨⟨by simp, by simp⟩, ?_, ?_, ?_, ?_, by norm_num⟩, ?_⟩
  · intro p hp
    simp at hp
    rcases hp with rfl | rfl | rfl | rfl | rfl <;> norm_num
  · intro p hp
    simp at hp
    rcases hp with rfl | rfl | rfl | rfl | rfl <;> norm_num
  · rw [List.forall₂_same]
    intro p _
    norm_num
  · norm_num
  · simp only [contour, seg_x, areaTol]
    norm_num

end
end TNS
