import Verif.Spec.Convex
import Verif.Props.PointInPath
/-
A convex polygon winds once around its interior (fan of triangles at the first vertex).
-/

set_option autoImplicit false

namespace TNS
open Spec MeasureTheory

/-- `p` lies at no vertex height and on no line through two vertices. -/
def Generic (p : ℝ × ℝ) (u w : ℝ × ℝ) : Prop :=
  p.2 ≠ u.2 ∧ p.2 ≠ w.2 ∧ (u.2 ≠ w.2 → orient u w p ≠ 0)

theorem upCross_iff (p a b : ℝ × ℝ) (h : Generic p a b) :
    UpCross p a b ↔ a.2 < p.2 ∧ p.2 < b.2 ∧ 0 < orient a b p := by
  obtain ⟨h1, h2, h3⟩ := h
  constructor
  · rintro ⟨u1, u2, u3⟩
    have u2' := lt_of_le_of_ne u2 h2
    have hab : a.2 < b.2 := u1.trans u2'
    refine ⟨u1, u2', lt_of_le_of_ne ?_ (h3 hab.ne).symm⟩
    have hd : 0 < b.2 - a.2 := by linarith
    have := mul_le_mul_of_nonneg_right u3 hd.le
    unfold abscissa at this
    have e : (a.1 + (p.2 - a.2) / (b.2 - a.2) * (b.1 - a.1)) * (b.2 - a.2) =
        a.1 * (b.2 - a.2) + (p.2 - a.2) * (b.1 - a.1) := by field_simp
    rw [e] at this
    unfold orient; linarith
  · rintro ⟨u1, u2, u3⟩
    have hab : a.2 < b.2 := u1.trans u2
    refine ⟨u1, u2.le, ?_⟩
    have hd : 0 < b.2 - a.2 := by linarith
    refine le_of_mul_le_mul_right ?_ hd
    have e : abscissa a b p.2 * (b.2 - a.2) =
        a.1 * (b.2 - a.2) + (p.2 - a.2) * (b.1 - a.1) := by unfold abscissa; field_simp
    rw [e]
    unfold orient at u3; linarith

theorem downCross_iff (p a b : ℝ × ℝ) (h : Generic p a b) :
    DownCross p a b ↔ b.2 < p.2 ∧ p.2 < a.2 ∧ orient a b p < 0 := by
  obtain ⟨h1, h2, h3⟩ := h
  have e : b.2 < a.2 → abscissa a b p.2 * (a.2 - b.2) =
      a.1 * (a.2 - b.2) - (p.2 - a.2) * (b.1 - a.1) := by
    intro hab
    have : b.2 - a.2 ≠ 0 := by intro hh; linarith
    unfold abscissa; field_simp; ring
  constructor
  · rintro ⟨u1, u2, u3⟩
    have u2' := lt_of_le_of_ne u2 h1
    have hab : b.2 < a.2 := u1.trans u2'
    refine ⟨u1, u2', ?_⟩
    have hd : 0 < a.2 - b.2 := by linarith
    have := mul_lt_mul_of_pos_right u3 hd
    rw [e hab] at this
    unfold orient; linarith
  · rintro ⟨u1, u2, u3⟩
    have hab : b.2 < a.2 := u1.trans u2
    refine ⟨u1, u2.le, ?_⟩
    have hd : 0 < a.2 - b.2 := by linarith
    refine lt_of_mul_lt_mul_right ?_ hd.le
    rw [e hab]
    unfold orient at u3; linarith

theorem Generic.symm {p u w : ℝ × ℝ} (h : Generic p u w) : Generic p w u := by
  refine ⟨h.2.1, h.1, fun hne he => h.2.2 hne.symm ?_⟩
  have : orient u w p = -orient w u p := by unfold orient; ring
  rw [this, he, neg_zero]

theorem signedCross_symm (p a b : ℝ × ℝ) (h : Generic p a b) :
    signedCross p a b + signedCross p b a = 0 := by
  have e : orient b a p = -orient a b p := by unfold orient; ring
  unfold signedCross
  simp only [upCross_iff p a b h, downCross_iff p a b h, upCross_iff p b a h.symm,
    downCross_iff p b a h.symm, e, neg_lt_zero, neg_pos]
  split_ifs <;> simp_all

/-- An anticlockwise triangle winds 0 times or once, and once only around points strictly to the left
of all its sides. -/
theorem triangle_winding (p a b c : ℝ × ℝ) (hab : Generic p a b) (hbc : Generic p b c)
    (hca : Generic p c a) (ho : 0 ≤ orient a b c) :
    signedCross p a b + signedCross p b c + signedCross p c a = 0 ∨
    (signedCross p a b + signedCross p b c + signedCross p c a = 1 ∧
      0 < orient a b p ∧ 0 < orient b c p ∧ 0 < orient c a p) := by
  have s1 : orient a b p + orient b c p + orient c a p = orient a b c := by unfold orient; ring
  have s2 : orient a b p * (c.2 - p.2) + orient b c p * (a.2 - p.2) + orient c a p * (b.2 - p.2) = 0 := by
    unfold orient; ring
  unfold signedCross
  simp only [upCross_iff p a b hab, downCross_iff p a b hab, upCross_iff p b c hbc,
    downCross_iff p b c hbc, upCross_iff p c a hca, downCross_iff p c a hca]
  have n1 := hab.2.2
  have n2 := hbc.2.2
  have n3 := hca.2.2
  have ha := hab.1
  have hb := hbc.1
  have hc := hca.1
  generalize orient a b p = X at *
  generalize orient b c p = Y at *
  generalize orient c a p = Z at *
  have key : ∀ {x y z A B C : ℝ}, x * C + y * A + z * B = 0 → 0 ≤ x + y + z → 0 < C → A < 0 → B < 0 →
      (0 < y → 0 < z → 0 < x) ∧ ¬ (y < 0 ∧ z < 0) := by
    intro x y z A B C h hs hC hA hB
    refine ⟨fun hy hz => ?_, fun ⟨hy, hz⟩ => ?_⟩
    · by_contra hx
      push Not at hx
      nlinarith [mul_pos_of_neg_of_neg hA (neg_neg_of_pos hy), mul_pos_of_neg_of_neg hB (neg_neg_of_pos hz),
        mul_nonneg (neg_nonneg.2 hx) hC.le]
    · have hx : 0 < x := by linarith
      nlinarith [mul_pos hx hC, mul_pos_of_neg_of_neg hy hA, mul_pos_of_neg_of_neg hz hB]
  have key' : ∀ {x y z A B C : ℝ}, x * C + y * A + z * B = 0 → 0 ≤ x + y + z → C < 0 → 0 < A → 0 < B →
      (0 < y → 0 < z → 0 < x) ∧ ¬ (y < 0 ∧ z < 0) := by
    intro x y z A B C h hs hC hA hB
    exact key (A := -A) (B := -B) (C := -C) (by linarith) hs (by linarith) (by linarith) (by linarith)
  rcases lt_or_gt_of_ne ha with a1 | a1 <;> rcases lt_or_gt_of_ne hb with b1 | b1 <;>
    rcases lt_or_gt_of_ne hc with c1 | c1
  · simp [not_lt.2 a1.le, not_lt.2 b1.le, not_lt.2 c1.le]
  · obtain ⟨k1, k2⟩ := key' (x := X) (y := Y) (z := Z) (A := a.2 - p.2) (B := b.2 - p.2)
      (C := c.2 - p.2) (by linarith) (by linarith) (by linarith) (by linarith) (by linarith)
    have hY := n2 (by linarith : c.2 < b.2).ne'
    have hZ := n3 (by linarith : c.2 < a.2).ne
    clear n1 n2 n3 key key' s1 s2
    rcases lt_or_gt_of_ne hY with y | y <;> rcases lt_or_gt_of_ne hZ with z | z
    · exact absurd ⟨y, z⟩ k2
    · left
      simp [a1, b1, c1, y, z, not_lt.2 a1.le, not_lt.2 b1.le, not_lt.2 c1.le, not_lt.2 y.le,
        not_lt.2 z.le]
    · left
      simp [a1, b1, c1, y, z, not_lt.2 a1.le, not_lt.2 b1.le, not_lt.2 c1.le, not_lt.2 y.le,
        not_lt.2 z.le]
    · right
      have w := k1 y z
      simp [a1, b1, c1, y, z, w, not_lt.2 a1.le, not_lt.2 b1.le, not_lt.2 c1.le, not_lt.2 y.le,
        not_lt.2 z.le]
  · obtain ⟨k1, k2⟩ := key' (x := Z) (y := X) (z := Y) (A := c.2 - p.2) (B := a.2 - p.2)
      (C := b.2 - p.2) (by linarith) (by linarith) (by linarith) (by linarith) (by linarith)
    have hY := n1 (by linarith : b.2 < a.2).ne'
    have hZ := n2 (by linarith : b.2 < c.2).ne
    clear n1 n2 n3 key key' s1 s2
    rcases lt_or_gt_of_ne hY with y | y <;> rcases lt_or_gt_of_ne hZ with z | z
    · exact absurd ⟨y, z⟩ k2
    · left
      simp [a1, b1, c1, y, z, not_lt.2 a1.le, not_lt.2 b1.le, not_lt.2 c1.le, not_lt.2 y.le,
        not_lt.2 z.le]
    · left
      simp [a1, b1, c1, y, z, not_lt.2 a1.le, not_lt.2 b1.le, not_lt.2 c1.le, not_lt.2 y.le,
        not_lt.2 z.le]
    · right
      have w := k1 y z
      simp [a1, b1, c1, y, z, w, not_lt.2 a1.le, not_lt.2 b1.le, not_lt.2 c1.le, not_lt.2 y.le,
        not_lt.2 z.le]
  · obtain ⟨k1, k2⟩ := key (x := Y) (y := Z) (z := X) (A := b.2 - p.2) (B := c.2 - p.2)
      (C := a.2 - p.2) (by linarith) (by linarith) (by linarith) (by linarith) (by linarith)
    have hY := n3 (by linarith : c.2 < a.2).ne
    have hZ := n1 (by linarith : b.2 < a.2).ne'
    clear n1 n2 n3 key key' s1 s2
    rcases lt_or_gt_of_ne hY with y | y <;> rcases lt_or_gt_of_ne hZ with z | z
    · exact absurd ⟨y, z⟩ k2
    · left
      simp [a1, b1, c1, y, z, not_lt.2 a1.le, not_lt.2 b1.le, not_lt.2 c1.le, not_lt.2 y.le,
        not_lt.2 z.le]
    · left
      simp [a1, b1, c1, y, z, not_lt.2 a1.le, not_lt.2 b1.le, not_lt.2 c1.le, not_lt.2 y.le,
        not_lt.2 z.le]
    · right
      have w := k1 y z
      simp [a1, b1, c1, y, z, w, not_lt.2 a1.le, not_lt.2 b1.le, not_lt.2 c1.le, not_lt.2 y.le,
        not_lt.2 z.le]
  · obtain ⟨k1, k2⟩ := key' (x := Y) (y := Z) (z := X) (A := b.2 - p.2) (B := c.2 - p.2)
      (C := a.2 - p.2) (by linarith) (by linarith) (by linarith) (by linarith) (by linarith)
    have hY := n3 (by linarith : a.2 < c.2).ne'
    have hZ := n1 (by linarith : a.2 < b.2).ne
    clear n1 n2 n3 key key' s1 s2
    rcases lt_or_gt_of_ne hY with y | y <;> rcases lt_or_gt_of_ne hZ with z | z
    · exact absurd ⟨y, z⟩ k2
    · left
      simp [a1, b1, c1, y, z, not_lt.2 a1.le, not_lt.2 b1.le, not_lt.2 c1.le, not_lt.2 y.le,
        not_lt.2 z.le]
    · left
      simp [a1, b1, c1, y, z, not_lt.2 a1.le, not_lt.2 b1.le, not_lt.2 c1.le, not_lt.2 y.le,
        not_lt.2 z.le]
    · right
      have w := k1 y z
      simp [a1, b1, c1, y, z, w, not_lt.2 a1.le, not_lt.2 b1.le, not_lt.2 c1.le, not_lt.2 y.le,
        not_lt.2 z.le]
  · obtain ⟨k1, k2⟩ := key (x := Z) (y := X) (z := Y) (A := c.2 - p.2) (B := a.2 - p.2)
      (C := b.2 - p.2) (by linarith) (by linarith) (by linarith) (by linarith) (by linarith)
    have hY := n1 (by linarith : a.2 < b.2).ne
    have hZ := n2 (by linarith : c.2 < b.2).ne'
    clear n1 n2 n3 key key' s1 s2
    rcases lt_or_gt_of_ne hY with y | y <;> rcases lt_or_gt_of_ne hZ with z | z
    · exact absurd ⟨y, z⟩ k2
    · left
      simp [a1, b1, c1, y, z, not_lt.2 a1.le, not_lt.2 b1.le, not_lt.2 c1.le, not_lt.2 y.le,
        not_lt.2 z.le]
    · left
      simp [a1, b1, c1, y, z, not_lt.2 a1.le, not_lt.2 b1.le, not_lt.2 c1.le, not_lt.2 y.le,
        not_lt.2 z.le]
    · right
      have w := k1 y z
      simp [a1, b1, c1, y, z, w, not_lt.2 a1.le, not_lt.2 b1.le, not_lt.2 c1.le, not_lt.2 y.le,
        not_lt.2 z.le]
  · obtain ⟨k1, k2⟩ := key (x := X) (y := Y) (z := Z) (A := a.2 - p.2) (B := b.2 - p.2)
      (C := c.2 - p.2) (by linarith) (by linarith) (by linarith) (by linarith) (by linarith)
    have hY := n2 (by linarith : b.2 < c.2).ne
    have hZ := n3 (by linarith : a.2 < c.2).ne'
    clear n1 n2 n3 key key' s1 s2
    rcases lt_or_gt_of_ne hY with y | y <;> rcases lt_or_gt_of_ne hZ with z | z
    · exact absurd ⟨y, z⟩ k2
    · left
      simp [a1, b1, c1, y, z, not_lt.2 a1.le, not_lt.2 b1.le, not_lt.2 c1.le, not_lt.2 y.le,
        not_lt.2 z.le]
    · left
      simp [a1, b1, c1, y, z, not_lt.2 a1.le, not_lt.2 b1.le, not_lt.2 c1.le, not_lt.2 y.le,
        not_lt.2 z.le]
    · right
      have w := k1 y z
      simp [a1, b1, c1, y, z, w, not_lt.2 a1.le, not_lt.2 b1.le, not_lt.2 c1.le, not_lt.2 y.le,
        not_lt.2 z.le]
  · simp [not_lt.2 a1.le, not_lt.2 b1.le, not_lt.2 c1.le]

/-- The fan of triangles at `o`. -/
theorem fan_winding (o p : ℝ × ℝ) : ∀ (rest : List (ℝ × ℝ)) (a : ℝ × ℝ) (F : ℤ),
    (∀ u ∈ a :: rest, Generic p o u) → (∀ u ∈ a :: rest, ∀ w ∈ a :: rest, Generic p u w) →
    (a :: rest).Pairwise (fun u w => 0 ≤ orient o u w) →
    (F = 0 ∨ F = 1 ∧ ∀ u ∈ a :: rest, orient o u p ≤ 0) →
    F + signedCross p o a + winding p (a :: rest) + signedCross p ((a :: rest).getLast (by simp)) o = 0 ∨
    F + signedCross p o a + winding p (a :: rest) + signedCross p ((a :: rest).getLast (by simp)) o = 1
  | [], a, F, h1, _, _, hF => by
    have := signedCross_symm p o a (h1 a (by simp))
    simp only [winding, List.getLast_singleton, add_zero]
    rcases hF with hF | hF
    · left; omega
    · right; omega
  | b :: rest, a, F, h1, h2, h3, hF => by
    have hab := h2 a (by simp) b (by simp)
    have hoa := h1 a (by simp)
    have hob := h1 b (by simp)
    have hsym := signedCross_symm p o b hob
    rw [List.pairwise_cons] at h3
    have ht := triangle_winding p o a b hoa hab hob.symm (h3.1 b (by simp))
    have ih := fan_winding o p rest b
      (F + (signedCross p o a + signedCross p a b + signedCross p b o))
      (fun u hu => h1 u (List.mem_cons_of_mem _ hu))
      (fun u hu w hw => h2 u (List.mem_cons_of_mem _ hu) w (List.mem_cons_of_mem _ hw)) h3.2 (by
        rcases ht with ht | ⟨ht, t1, t2, t3⟩
        · rcases hF with hF | ⟨hF, hF'⟩
          · left; omega
          · right
            exact ⟨by omega, fun u hu => hF' u (List.mem_cons_of_mem _ hu)⟩
        · have hF0 : F = 0 := by
            rcases hF with hF | ⟨hF, hF'⟩
            · exact hF
            · exact absurd (hF' a (by simp)) (not_le.2 t1)
          right
          refine ⟨by omega, fun u hu => ?_⟩
          have g1 : 0 ≤ orient o a u := h3.1 u hu
          have g2 : 0 ≤ orient o b u := by
            rcases List.mem_cons.1 hu with rfl | hu'
            · unfold orient; nlinarith
            · exact (List.pairwise_cons.1 h3.2).1 u hu'
          have e1 : orient o a p + orient a b p + orient b o p = orient o a b := by
            unfold orient; ring
          have e2 : orient o a b * orient o u p = -(orient b o p * orient o a u) -
              orient o a p * orient o b u := by unfold orient; ring
          have hpos : 0 < orient o a b := by linarith
          have : orient o a b * orient o u p ≤ 0 := by
            rw [e2]; nlinarith [mul_nonneg t3.le g1, mul_nonneg t1.le g2]
          by_contra hc
          push Not at hc
          nlinarith [mul_pos hpos hc])
    simp only [winding]
    rw [List.getLast_cons_cons]
    rcases ih with ih | ih
    · left; linarith
    · right; linarith

theorem generic_ae (pts : List (ℝ × ℝ)) :
    ∀ᵐ p : ℝ × ℝ, ∀ u ∈ pts, ∀ w ∈ pts, Generic p u w := by
  have hpair : ∀ u w : ℝ × ℝ, ∀ᵐ p : ℝ × ℝ, Generic p u w := by
    intro u w
    have a1 : ∀ᵐ p : ℝ × ℝ, p.2 ≠ u.2 := by
      rw [ae_iff]; simpa using horizontal_null u.2
    have a2 : ∀ᵐ p : ℝ × ℝ, p.2 ≠ w.2 := by
      rw [ae_iff]; simpa using horizontal_null w.2
    have a3 : ∀ᵐ p : ℝ × ℝ, u.2 ≠ w.2 → orient u w p ≠ 0 := by
      by_cases h : u.2 = w.2
      · simp [h]
      · rw [ae_iff]
        refine measure_mono_null ?_ (line_null u w h)
        intro p hp
        simp only [Set.mem_ofPred_eq, not_forall, not_not] at hp ⊢
        obtain ⟨_, hp⟩ := hp
        unfold orient at hp
        linarith
    filter_upwards [a1, a2, a3] with p h1 h2 h3 using ⟨h1, h2, h3⟩
  have : ∀ u ∈ {u | u ∈ pts}, ∀ᵐ p : ℝ × ℝ, ∀ w ∈ {w | w ∈ pts}, Generic p u w := fun u _ =>
    (ae_ball_iff (List.finite_toSet pts).countable).2 fun w _ => hpair u w
  exact (ae_ball_iff (List.finite_toSet pts).countable).2 this

/-- A closed convex polygon winds once, anticlockwise, around its interior. -/
theorem convex_windsOnce (o : ℝ × ℝ) (l : List (ℝ × ℝ)) (hc : ConvexPolygon (o :: l)) :
    WindsOnce (o :: l ++ [o]) 1 := by
  refine ⟨.inl rfl, ?_⟩
  filter_upwards [generic_ae (o :: l)] with p hp
  cases l with
  | nil => simp [winding, signedCross_self]
  | cons a rest =>
    have hpw : (a :: rest).Pairwise (fun u w => 0 ≤ orient o u w) := by
      rw [List.pairwise_iff_getElem]
      intro i j hi hj hij
      exact hc 0 (i + 1) (j + 1) o _ _ (by omega) (by omega) (by simp)
        (by simp [List.getElem?_eq_getElem hi]) (by simp [List.getElem?_eq_getElem hj])
    have := fan_winding o p rest a 0 (fun u hu => hp o (by simp) u (List.mem_cons_of_mem _ hu))
      (fun u hu w hw => hp u (List.mem_cons_of_mem _ hu) w (List.mem_cons_of_mem _ hw)) hpw (.inl rfl)
    have e : ∀ (r : List (ℝ × ℝ)) (b : ℝ × ℝ), winding p (b :: r ++ [o]) =
        winding p (b :: r) + signedCross p ((b :: r).getLast (by simp)) o := by
      intro r
      induction r with
      | nil => intro b; simp [winding]
      | cons x r ih =>
        intro b
        have := ih x
        simp only [List.cons_append, winding] at this ⊢
        rw [this, List.getLast_cons_cons]
        ring
    have e2 : winding p (o :: a :: rest ++ [o]) = 0 + signedCross p o a + winding p (a :: rest) +
        signedCross p ((a :: rest).getLast (by simp)) o := by
      have := e (a :: rest) o
      rw [this]
      simp only [winding]
      rw [List.getLast_cons_cons]
      ring
    rw [e2]
    exact this

end TNS
