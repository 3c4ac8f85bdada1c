import Verif.Spec.Convex
import Verif.Props.FausserVolume
/-
C65 for convex polygons, point by point: matplotlib's test accepts exactly the points that lie to the
left of (or on) every edge, apart from the points at the height of the lowest vertex.
-/

set_option autoImplicit false

namespace TNS
open Spec
noncomputable section

section indexed
variable (v : ℕ → ℝ × ℝ) (m : ℕ)

/-- Edge `i` goes up through the height `z`. -/
def goesUp (z : ℝ) (i : ℕ) : Prop := (v i).2 < z ∧ z ≤ (v (i + 1)).2
/-- Edge `i` goes down through the height `z`. -/
def goesDown (z : ℝ) (i : ℕ) : Prop := (v (i + 1)).2 < z ∧ z ≤ (v i).2

variable {v m}

theorem edge_nonneg (hv : ∀ i j k, i < j → j < k → k ≤ m → 0 ≤ orient (v i) (v j) (v k)) (i : ℕ)
    (hi : i < m) (k : ℕ) (hk : k ≤ m) : 0 ≤ orient (v i) (v (i + 1)) (v k) := by
  rcases lt_trichotomy k i with h | h | h
  · rw [orient_cycle]
    exact hv k i (i + 1) h (by omega) (by omega)
  · subst h; simp [orient]
  · rcases Nat.eq_or_lt_of_le h with h' | h'
    · obtain rfl : k = i + 1 := h'.symm
      have h0 : orient (v i) (v (i + 1)) (v (i + 1)) = 0 := by unfold orient; ring
      exact h0.ge
    · exact hv i (i + 1) k (by omega) h' hk

/-- If two edges go up through the same height, all vertices lie on one line. -/
theorem up_collinear (hv : ∀ i j k, i < j → j < k → k ≤ m → 0 ≤ orient (v i) (v j) (v k)) (z : ℝ)
    (i j : ℕ) (hij : i < j) (hj : j < m) (h1 : goesUp v z i) (h2 : goesUp v z j) (k : ℕ) (hk : k ≤ m) :
    orient (v i) (v (i + 1)) (v k) = 0 := by
  obtain ⟨a1, a2⟩ := h1
  obtain ⟨b1, b2⟩ := h2
  have hne : i + 1 ≠ j := by rintro rfl; linarith
  have hlt : i + 1 < j := by omega
  have o1 := hv i (i + 1) j (by omega) hlt (by omega)
  have o2 := hv i j (j + 1) hij (by omega) (by omega)
  have o3 := hv i (i + 1) (j + 1) (by omega) (by omega) (by omega)
  have o4 := hv (i + 1) j (j + 1) hlt (by omega) (by omega)
  have hE := edge_nonneg hv i (by omega) k hk
  -- orientations with the vertex k
  have q1 : k < i + 1 ∨ j < k → 0 ≤ orient (v (i + 1)) (v j) (v k) := by
    rintro (h | h)
    · rw [orient_cycle]; exact hv k (i + 1) j h hlt (by omega)
    · exact hv (i + 1) j k hlt h hk
  have q2 : i < k → k < j + 1 → 0 ≤ orient (v i) (v k) (v (j + 1)) :=
    fun h h' => hv i k (j + 1) h h' (by omega)
  have q3 : k < i + 1 ∨ j < k ∨ (i < k ∧ k < j + 1) := by omega
  generalize v i = A at *
  generalize v (i + 1) = B at *
  generalize v j = C at *
  generalize v (j + 1) = D at *
  generalize v k = E at *
  obtain ⟨ax, az⟩ := A
  obtain ⟨bx, bz⟩ := B
  obtain ⟨cx, cz⟩ := C
  obtain ⟨dx, dz⟩ := D
  obtain ⟨ex, ez⟩ := E
  simp only [orient] at *
  -- the two diagonals
  have hW : (bx - ax) * (cz - az) - (cx - ax) * (bz - az) = 0 ∧
      (cx - ax) * (dz - az) - (dx - ax) * (cz - az) = 0 := by
    set w1 := (bx - ax) * (cz - az) - (cx - ax) * (bz - az) with hw1
    set w2 := (cx - ax) * (dz - az) - (dx - ax) * (cz - az) with hw2
    set w3 := (bx - ax) * (dz - az) - (dx - ax) * (bz - az) with hw3
    set w4 := (cx - bx) * (dz - bz) - (dx - bx) * (cz - bz) with hw4
    have s1 : w4 + w3 = w2 + w1 := by rw [hw1, hw2, hw3, hw4]; ring
    have s2 : w4 * az + w3 * cz = w2 * bz + w1 * dz := by rw [hw1, hw2, hw3, hw4]; ring
    have t1 : 0 ≤ w2 * (bz - z) := mul_nonneg o2 (by linarith)
    have t2 : 0 ≤ w1 * (dz - z) := mul_nonneg o1 (by linarith)
    have t3 : 0 ≤ w4 * (z - az) := mul_nonneg o4 (by linarith)
    have t4 : 0 ≤ w3 * (z - cz) := mul_nonneg o3 (by linarith)
    have e3 : w4 * (z - az) + w3 * (z - cz) + w2 * (bz - z) + w1 * (dz - z) = 0 := by
      linear_combination z * s1 - s2
    have u3 : w4 * (z - az) = 0 := by linarith
    have u4 : w3 * (z - cz) = 0 := by linarith
    have w40 : w4 = 0 := (mul_eq_zero.1 u3).resolve_right (by linarith)
    have w30 : w3 = 0 := (mul_eq_zero.1 u4).resolve_right (by linarith)
    constructor <;> linarith
  obtain ⟨hC, hCD⟩ := hW
  have hba : 0 < bz - az := by linarith
  have hda : 0 < dz - az := by linarith
  have hbc : 0 < bz - cz := by linarith
  have hD : (bx - ax) * (dz - az) - (dx - ax) * (bz - az) = 0 := by
    have s1 : (cx - bx) * (dz - bz) - (dx - bx) * (cz - bz) +
        ((bx - ax) * (dz - az) - (dx - ax) * (bz - az)) = 0 := by linear_combination hC + hCD
    linarith
  apply le_antisymm _ hE
  have r1 : k < i + 1 ∨ j < k → (bx - ax) * (ez - az) - (ex - ax) * (bz - az) ≤ 0 := by
    intro h
    have q := q1 h
    have e : (bz - az) * ((cx - bx) * (ez - bz) - (ex - bx) * (cz - bz)) =
        -(bz - cz) * ((bx - ax) * (ez - az) - (ex - ax) * (bz - az)) := by
      linear_combination (ez - bz) * (-hC)
    have : 0 ≤ -(bz - cz) * ((bx - ax) * (ez - az) - (ex - ax) * (bz - az)) := by
      rw [← e]; exact mul_nonneg hba.le q
    by_contra hcon
    push Not at hcon
    nlinarith [mul_pos hbc hcon]
  have r2 : i < k → k < j + 1 → (bx - ax) * (ez - az) - (ex - ax) * (bz - az) ≤ 0 := by
    intro h h'
    have q := q2 h h'
    have e : (bz - az) * ((ex - ax) * (dz - az) - (dx - ax) * (ez - az)) =
        -(dz - az) * ((bx - ax) * (ez - az) - (ex - ax) * (bz - az)) := by
      linear_combination (ez - az) * hD
    have : 0 ≤ -(dz - az) * ((bx - ax) * (ez - az) - (ex - ax) * (bz - az)) := by
      rw [← e]; exact mul_nonneg hba.le q
    by_contra hcon
    push Not at hcon
    nlinarith [mul_pos hda hcon]
  rcases q3 with h | h | h
  · exact r1 (Or.inl h)
  · exact r1 (Or.inr h)
  · exact r2 h.1 h.2

open Classical in
/-- As many edges go up through a height as go down. -/
theorem up_eq_down (hc : v m = v 0) (z : ℝ) :
    ((Finset.range m).filter (goesUp v z)).card = ((Finset.range m).filter (goesDown v z)).card := by
  have key : ∀ n, (((Finset.range n).filter (goesUp v z)).card : ℤ) -
      ((Finset.range n).filter (goesDown v z)).card =
      (if z ≤ (v n).2 then 1 else 0) - (if z ≤ (v 0).2 then 1 else 0) := by
    intro n
    induction n with
    | zero => simp
    | succ n ih =>
      rw [Finset.range_add_one, Finset.filter_insert, Finset.filter_insert]
      by_cases h1 : z ≤ (v n).2 <;> by_cases h2 : z ≤ (v (n + 1)).2
      · rw [if_neg (fun h => by have := h.1; linarith), if_neg (fun h => by have := h.1; linarith), ih,
          if_pos h1, if_pos h2]
      · rw [if_neg (fun h => by have := h.1; linarith), if_pos ⟨not_le.1 h2, h1⟩,
          Finset.card_insert_of_notMem (by simp), if_neg h2]
        rw [if_pos h1] at ih
        push_cast
        linarith
      · rw [if_pos ⟨not_le.1 h1, h2⟩, if_neg (fun h => by have := h.1; linarith),
          Finset.card_insert_of_notMem (by simp), if_pos h2]
        rw [if_neg h1] at ih
        push_cast
        linarith
      · rw [if_neg (fun h => h2 h.2), if_neg (fun h => h1 h.2), ih, if_neg h1, if_neg h2]
  have := key m
  rw [hc, sub_self, sub_eq_zero] at this
  exact_mod_cast this

theorem up_orient (p a b : ℝ × ℝ) (h : a.2 < b.2) : p.1 ≤ abscissa a b p.2 ↔ 0 ≤ orient a b p := by
  rw [abscissa_le_iff p a b h]
  unfold orient
  constructor <;> intro h <;> linarith

theorem down_orient (p a b : ℝ × ℝ) (h : b.2 < a.2) : ¬ p.1 < abscissa a b p.2 ↔ 0 ≤ orient a b p := by
  rw [lt_abscissa_iff p a b h, not_not]
  unfold orient
  constructor <;> intro h <;> linarith

/-- A half-plane that contains both ends of an edge contains the edge's point at height `z`. -/
theorem orient_abscissa (c d a b : ℝ × ℝ) (z : ℝ) (h : a.2 ≠ b.2)
    (hz : 0 ≤ (z - a.2) / (b.2 - a.2)) (hz' : (z - a.2) / (b.2 - a.2) ≤ 1)
    (ha : 0 ≤ orient c d a) (hb : 0 ≤ orient c d b) : 0 ≤ orient c d (abscissa a b z, z) := by
  have hd : b.2 - a.2 ≠ 0 := sub_ne_zero.2 h.symm
  have hzt : z = a.2 + (z - a.2) / (b.2 - a.2) * (b.2 - a.2) := by field_simp; ring
  unfold abscissa
  generalize (z - a.2) / (b.2 - a.2) = t at *
  subst hzt
  have e : orient c d (a.1 + t * (b.1 - a.1), a.2 + t * (b.2 - a.2)) =
      (1 - t) * orient c d a + t * orient c d b := by
    unfold orient; ring
  rw [e]
  exact add_nonneg (mul_nonneg (by linarith) ha) (mul_nonneg hz hb)

theorem convex_inside_indexed
    (hv : ∀ i j k, i < j → j < k → k ≤ m → 0 ≤ orient (v i) (v j) (v k)) (hc : v m = v 0)
    (hnc : ∀ i < m, (v i).2 < (v (i + 1)).2 → ∃ k ≤ m, orient (v i) (v (i + 1)) (v k) ≠ 0) (p : ℝ × ℝ) :
    Odd (∑ i ∈ Finset.range m, signedCross p (v i) (v (i + 1))) ↔
      (∃ i ≤ m, (v i).2 < p.2) ∧ (∃ i ≤ m, p.2 ≤ (v i).2) ∧
      ∀ k < m, 0 ≤ orient (v k) (v (k + 1)) p := by
  classical
  have huniq : ∀ i < m, ∀ j < m, goesUp v p.2 i → goesUp v p.2 j → i = j := by
    have key : ∀ i < m, ∀ j < m, goesUp v p.2 i → goesUp v p.2 j → ¬ i < j := by
      intro i hi j hj h1 h2 hij
      obtain ⟨k, hk, hne⟩ := hnc i hi (h1.1.trans_le h1.2)
      exact hne (up_collinear hv p.2 i j hij hj h1 h2 k hk)
    intro i hi j hj h1 h2
    have := key i hi j hj h1 h2
    have := key j hj i hi h2 h1
    omega
  have hcard := up_eq_down (v := v) (m := m) hc p.2
  have hU : ((Finset.range m).filter (goesUp v p.2)).card ≤ 1 := by
    rw [Finset.card_le_one]
    intro a ha b hb
    rw [Finset.mem_filter, Finset.mem_range] at ha hb
    exact huniq a ha.1 b hb.1 ha.2 hb.2
  rcases Nat.eq_zero_or_pos ((Finset.range m).filter (goesUp v p.2)).card with h0 | hpos
  · -- no edge at this height
    have hD0 : (Finset.range m).filter (goesDown v p.2) = ∅ := by
      rw [← Finset.card_eq_zero, ← hcard, h0]
    have hU0 : (Finset.range m).filter (goesUp v p.2) = ∅ := Finset.card_eq_zero.1 h0
    have nU : ∀ i < m, ¬ goesUp v p.2 i := fun i hi h => by
      have : i ∈ (Finset.range m).filter (goesUp v p.2) :=
        Finset.mem_filter.2 ⟨Finset.mem_range.2 hi, h⟩
      rw [hU0] at this; simp at this
    have nD : ∀ i < m, ¬ goesDown v p.2 i := fun i hi h => by
      have : i ∈ (Finset.range m).filter (goesDown v p.2) :=
        Finset.mem_filter.2 ⟨Finset.mem_range.2 hi, h⟩
      rw [hD0] at this; simp at this
    have hsum : ∑ i ∈ Finset.range m, signedCross p (v i) (v (i + 1)) = 0 := by
      refine Finset.sum_eq_zero fun i hi => ?_
      rw [Finset.mem_range] at hi
      have a1 : ¬ UpCross p (v i) (v (i + 1)) := fun h => nU i hi ⟨h.1, h.2.1⟩
      have a2 : ¬ DownCross p (v i) (v (i + 1)) := fun h => nD i hi ⟨h.1, h.2.1⟩
      simp [signedCross, a1, a2]
    rw [hsum]
    constructor
    · intro h; simp at h
    · rintro ⟨⟨i, hi, h1⟩, ⟨j, hj, h2⟩, -⟩
      exfalso
      have const : ∀ k ≤ m, ((v k).2 < p.2 ↔ (v 0).2 < p.2) := by
        intro k hk
        induction k with
        | zero => rfl
        | succ k ih =>
          rw [← ih (by omega)]
          have n1 := nU k (by omega)
          have n2 := nD k (by omega)
          unfold goesUp at n1
          unfold goesDown at n2
          constructor
          · intro h; by_contra hcon; exact n2 ⟨h, not_lt.1 hcon⟩
          · intro h; by_contra hcon; exact n1 ⟨h, not_lt.1 hcon⟩
      have := (const i hi).1 h1
      have := (const j hj).2 this
      linarith
  · -- one edge up, one edge down
    obtain ⟨i, hi⟩ := Finset.card_eq_one.1 (le_antisymm hU hpos)
    obtain ⟨j, hj⟩ := Finset.card_eq_one.1 (hcard ▸ le_antisymm hU hpos)
    have mi : i ∈ (Finset.range m).filter (goesUp v p.2) := by rw [hi]; simp
    have mj : j ∈ (Finset.range m).filter (goesDown v p.2) := by rw [hj]; simp
    rw [Finset.mem_filter, Finset.mem_range] at mi mj
    have onlyi : ∀ k < m, goesUp v p.2 k → k = i := fun k hk h => huniq k hk i mi.1 h mi.2
    have onlyj : ∀ k < m, goesDown v p.2 k → k = j := fun k hk h => by
      have : k ∈ (Finset.range m).filter (goesDown v p.2) :=
        Finset.mem_filter.2 ⟨Finset.mem_range.2 hk, h⟩
      rw [hj] at this; simpa using this
    have hiu : (v i).2 < (v (i + 1)).2 := mi.2.1.trans_le mi.2.2
    have hjd : (v (j + 1)).2 < (v j).2 := mj.2.1.trans_le mj.2.2
    have hsum : ∑ k ∈ Finset.range m, signedCross p (v k) (v (k + 1)) =
        (if p.1 ≤ abscissa (v i) (v (i + 1)) p.2 then 1 else 0) -
          (if p.1 < abscissa (v j) (v (j + 1)) p.2 then 1 else 0) := by
      simp only [signedCross]
      rw [Finset.sum_sub_distrib]
      congr 1
      · rw [Finset.sum_eq_single i]
        · by_cases h : p.1 ≤ abscissa (v i) (v (i + 1)) p.2
          · rw [if_pos ⟨mi.2.1, mi.2.2, h⟩, if_pos h]
          · rw [if_neg (fun hu => h hu.2.2), if_neg h]
        · intro k hk hne
          rw [Finset.mem_range] at hk
          exact if_neg fun h => hne (onlyi k hk ⟨h.1, h.2.1⟩)
        · intro h; exact absurd (Finset.mem_range.2 mi.1) h
      · rw [Finset.sum_eq_single j]
        · by_cases h : p.1 < abscissa (v j) (v (j + 1)) p.2
          · rw [if_pos ⟨mj.2.1, mj.2.2, h⟩, if_pos h]
          · rw [if_neg (fun hu => h hu.2.2), if_neg h]
        · intro k hk hne
          rw [Finset.mem_range] at hk
          exact if_neg fun h => hne (onlyj k hk ⟨h.1, h.2.1⟩)
        · intro h; exact absurd (Finset.mem_range.2 mj.1) h
    have hu := up_orient p (v i) (v (i + 1)) hiu
    have hd := down_orient p (v j) (v (j + 1)) hjd
    -- the two boundary points at this height are inside every half-plane
    have hPi : ∀ k < m, 0 ≤ orient (v k) (v (k + 1)) (abscissa (v i) (v (i + 1)) p.2, p.2) := by
      intro k hk
      refine orient_abscissa _ _ _ _ _ hiu.ne ?_ ?_ (edge_nonneg hv k hk i mi.1.le)
        (edge_nonneg hv k hk (i + 1) mi.1)
      · exact div_nonneg (by linarith [mi.2.1]) (by linarith)
      · rw [div_le_one (by linarith)]; linarith [mi.2.2]
    have hPj : ∀ k < m, 0 ≤ orient (v k) (v (k + 1)) (abscissa (v j) (v (j + 1)) p.2, p.2) := by
      intro k hk
      refine orient_abscissa _ _ _ _ _ hjd.ne' ?_ ?_ (edge_nonneg hv k hk j mj.1.le)
        (edge_nonneg hv k hk (j + 1) mj.1)
      · exact div_nonneg_of_nonpos (by linarith [mj.2.2]) (by linarith)
      · rw [div_le_one_of_neg (by linarith)]; linarith [mj.2.1]
    have hle : abscissa (v j) (v (j + 1)) p.2 ≤ abscissa (v i) (v (i + 1)) p.2 := by
      have := (up_orient (abscissa (v j) (v (j + 1)) p.2, p.2) (v i) (v (i + 1)) hiu).2 (hPj i mi.1)
      exact this
    have hiff : Odd ((if p.1 ≤ abscissa (v i) (v (i + 1)) p.2 then (1 : ℤ) else 0) -
          (if p.1 < abscissa (v j) (v (j + 1)) p.2 then 1 else 0)) ↔
        p.1 ≤ abscissa (v i) (v (i + 1)) p.2 ∧ ¬ p.1 < abscissa (v j) (v (j + 1)) p.2 := by
      by_cases h1 : p.1 ≤ abscissa (v i) (v (i + 1)) p.2 <;>
        by_cases h2 : p.1 < abscissa (v j) (v (j + 1)) p.2
      · simp [h1, h2]
      · simp [h1, h2]
      · exact absurd (h2.le.trans hle) h1
      · simp [h1, h2]
    rw [hsum, hiff]
    constructor
    · rintro ⟨h1, h2⟩
      refine ⟨⟨i, mi.1.le, mi.2.1⟩, ⟨i + 1, mi.1, mi.2.2⟩, fun k hk => ?_⟩
      have f1 := hPi k hk
      have f2 := hPj k hk
      have h2 := not_lt.1 h2
      unfold orient at f1 f2 ⊢
      simp only at f1 f2
      rcases le_total 0 ((v (k + 1)).2 - (v k).2) with hs | hs
      · nlinarith
      · nlinarith
    · rintro ⟨-, -, h⟩
      exact ⟨hu.2 (h i mi.1), hd.2 (h j mj.1)⟩

end indexed

/-! ### Lists of vertices -/

theorem edgeSum_congr_mem (f g : ℝ × ℝ → ℝ × ℝ → ℝ) (l : List (ℝ × ℝ))
    (h : ∀ p ∈ l, ∀ q ∈ l, f p q = g p q) : edgeSum f l = edgeSum g l := by
  induction l with
  | nil => rfl
  | cons a l ih =>
    cases l with
    | nil => rfl
    | cons b l =>
      simp only [edgeSum]
      rw [h a (by simp) b (by simp), ih fun p hp q hq => h p (by simp [hp]) q (by simp [hq])]

/-- A closed polygon whose vertices lie on one line that is not horizontal has no area. -/
theorem area_collinear (pts : List (ℝ × ℝ)) (hcl : ExactlyClosed pts) (a b : ℝ × ℝ) (hab : a.2 < b.2)
    (h : ∀ q ∈ pts, orient a b q = 0) : getArea2d pts = 0 := by
  have hx : ∀ q ∈ pts, q.1 = (a.1 - (b.1 - a.1) / (b.2 - a.2) * a.2) + (b.1 - a.1) / (b.2 - a.2) * q.2 := by
    intro q hq
    have := h q hq
    unfold orient at this
    have hd : b.2 - a.2 ≠ 0 := by linarith
    field_simp
    linarith
  generalize a.1 - (b.1 - a.1) / (b.2 - a.2) * a.2 = c at hx
  generalize (b.1 - a.1) / (b.2 - a.2) = d at hx
  have hs : shoelace pts = 0 := by
    unfold shoelace
    rw [edgeSum_congr_mem _ (fun p q => (fun r : ℝ × ℝ => c * r.2) q - (fun r : ℝ × ℝ => c * r.2) p) pts]
    · exact edgeSum_closed _ pts hcl
    · intro p hp q hq
      rw [hx p hp, hx q hq]; ring
  rw [area_shoelace pts hcl, hs]; simp

/-- C65.  Inside a convex polygon (vertices listed anticlockwise): matplotlib accepts exactly the
points that lie on or to the left of every edge, save those at the height of the lowest vertices. -/
theorem C65_convex (pts : List (ℝ × ℝ)) (hcl : ExactlyClosed pts) (hl : 3 ≤ pts.length)
    (hconv : ConvexPolygon pts) (ha : getArea2d pts ≠ 0) (p : ℝ × ℝ) :
    containsPoint pts p = true ↔
      (∃ q ∈ pts, q.2 < p.2) ∧ (∃ q ∈ pts, p.2 ≤ q.2) ∧
      ∀ (i : ℕ) (h : i + 1 < pts.length), 0 ≤ orient pts[i] pts[i + 1] p := by
  obtain ⟨m, hm⟩ : ∃ m, pts.length = m + 1 := ⟨pts.length - 1, by omega⟩
  set v : ℕ → ℝ × ℝ := fun i => pts.getD i (0, 0) with hvdef
  have hget : ∀ i (h : i < pts.length), v i = pts[i] := fun i h => by
    simp [hvdef, List.getD_eq_getElem?_getD, h]
  have hmap : pts = (List.range (m + 1)).map v := by
    apply List.ext_getElem
    · simp [hm]
    · intro i h1 h2
      simp [hget i h1]
  have hv : ∀ i j k, i < j → j < k → k ≤ m → 0 ≤ orient (v i) (v j) (v k) := by
    intro i j k hij hjk hk
    refine hconv i j k _ _ _ hij hjk ?_ ?_ ?_ <;>
    · rw [hget _ (by omega)]; exact List.getElem?_eq_getElem _
  have hclose : v m = v 0 := by
    have := hcl.2
    rw [hget m (by omega), hget 0 (by omega)]
    rw [List.head?_eq_getElem?, List.getLast?_eq_getElem?, List.getElem?_eq_getElem (by omega),
      List.getElem?_eq_getElem (by omega)] at this
    have := Option.some.inj this
    rw [this]
    simp [hm]
  have hmem : ∀ q, q ∈ pts ↔ ∃ i ≤ m, v i = q := by
    intro q
    conv_lhs => rw [hmap]
    simp only [List.mem_map, List.mem_range, Nat.lt_succ_iff]
  have hnc : ∀ i < m, (v i).2 < (v (i + 1)).2 → ∃ k ≤ m, orient (v i) (v (i + 1)) (v k) ≠ 0 := by
    intro i hi hlt
    by_contra hcon
    push Not at hcon
    refine ha (area_collinear pts hcl _ _ hlt fun q hq => ?_)
    obtain ⟨k, hk, rfl⟩ := (hmem q).1 hq
    exact hcon k hk
  rw [C65_winding pts hcl.2 hl]
  conv_lhs => rw [hmap]
  rw [winding_range, convex_inside_indexed hv hclose hnc]
  refine and_congr ?_ (and_congr ?_ ?_)
  · simp only [hmem]
    constructor
    · rintro ⟨i, hi, h⟩; exact ⟨_, ⟨i, hi, rfl⟩, h⟩
    · rintro ⟨_, ⟨i, hi, rfl⟩, h⟩; exact ⟨i, hi, h⟩
  · simp only [hmem]
    constructor
    · rintro ⟨i, hi, h⟩; exact ⟨_, ⟨i, hi, rfl⟩, h⟩
    · rintro ⟨_, ⟨i, hi, rfl⟩, h⟩; exact ⟨i, hi, h⟩
  · constructor
    · intro h i hi
      rw [← hget i (by omega), ← hget (i + 1) hi]
      exact h i (by omega)
    · intro h i hi
      rw [hget i (by omega), hget (i + 1) (by omega)]
      exact h i (by omega)

/-- The unit square meets the hypotheses of `C65_convex`. -/
example : ExactlyClosed [((0 : ℝ), (0 : ℝ)), (1, 0), (1, 1), (0, 1), (0, 0)] ∧
    ConvexPolygon [((0 : ℝ), (0 : ℝ)), (1, 0), (1, 1), (0, 1), (0, 0)] ∧
    getArea2d [((0 : ℝ), (0 : ℝ)), (1, 0), (1, 1), (0, 1), (0, 0)] ≠ 0 := by
  refine ⟨⟨by simp, rfl⟩, ?_, ?_⟩
  · intro i j k a b c hij hjk hi hj hk
    have : k < 5 := by
      rw [List.getElem?_eq_some_iff] at hk
      exact hk.1
    interval_cases k <;> interval_cases j <;> interval_cases i <;> simp at hi hj hk <;>
      subst hi <;> subst hj <;> subst hk <;> norm_num [orient]
  · norm_num [getArea2d, roll]

/-- Straight-line convexity: between two accepted points every point is accepted. -/
theorem C65_convex_segment (pts : List (ℝ × ℝ)) (hcl : ExactlyClosed pts) (hl : 3 ≤ pts.length)
    (hconv : ConvexPolygon pts) (ha : getArea2d pts ≠ 0) (p q : ℝ × ℝ)
    (hp : containsPoint pts p = true) (hq : containsPoint pts q = true) (t : ℝ) (h0 : 0 ≤ t) (h1 : t ≤ 1) :
    containsPoint pts (p.1 + t * (q.1 - p.1), p.2 + t * (q.2 - p.2)) = true := by
  rw [C65_convex pts hcl hl hconv ha] at hp hq ⊢
  obtain ⟨⟨a, ha1, ha2⟩, ⟨b, hb1, hb2⟩, hp3⟩ := hp
  obtain ⟨⟨c, hc1, hc2⟩, ⟨d, hd1, hd2⟩, hq3⟩ := hq
  have hmin : min p.2 q.2 ≤ p.2 + t * (q.2 - p.2) := by
    rcases le_total p.2 q.2 with h | h
    · rw [min_eq_left h]; nlinarith
    · rw [min_eq_right h]; nlinarith
  have hmax : p.2 + t * (q.2 - p.2) ≤ max p.2 q.2 := by
    rcases le_total p.2 q.2 with h | h
    · rw [max_eq_right h]; nlinarith
    · rw [max_eq_left h]; nlinarith
  refine ⟨?_, ?_, fun i h => ?_⟩
  · rcases le_total p.2 q.2 with h | h
    · rw [min_eq_left h] at hmin; exact ⟨a, ha1, by simpa using ha2.trans_le hmin⟩
    · rw [min_eq_right h] at hmin; exact ⟨c, hc1, by simpa using hc2.trans_le hmin⟩
  · rcases le_total p.2 q.2 with h | h
    · rw [max_eq_right h] at hmax; exact ⟨d, hd1, by simpa using hmax.trans hd2⟩
    · rw [max_eq_left h] at hmax; exact ⟨b, hb1, by simpa using hmax.trans hb2⟩
  · have e : orient pts[i] pts[i + 1] (p.1 + t * (q.1 - p.1), p.2 + t * (q.2 - p.2)) =
        (1 - t) * orient pts[i] pts[i + 1] p + t * orient pts[i] pts[i + 1] q := by
      unfold orient; ring
    rw [e]
    exact add_nonneg (mul_nonneg (by linarith) (hp3 i h)) (mul_nonneg h0 (hq3 i h))

end
end TNS
