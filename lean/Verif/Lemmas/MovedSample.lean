import Verif.Lemmas.PerturbPolygon
import Verif.Props.RoundedSpace
/-
Sampling a polygon whose vertices, and whose magnetic axis, are slightly off.
-/

set_option autoImplicit false

namespace TNS
open Spec
noncomputable section

/-- The polygon with its first vertex repeated at the end. -/
def closeUp (pts : List (ℝ × ℝ)) : List (ℝ × ℝ) := pts ++ pts.head?.toList

theorem closeUp_cons (a : ℝ × ℝ) (l : List (ℝ × ℝ)) : closeUp (a :: l) = a :: (l ++ [a]) := rfl

theorem closeUp_edges (a : ℝ × ℝ) (l : List (ℝ × ℝ)) : pathEdges (closeUp (a :: l)) = pathEdges (a :: l) ++ [(a, a)] := by
  rw [closeUp_cons]
  simp only [pathEdges]
  rw [show a :: (l ++ [a]) = (a :: l) ++ [a] by simp, List.zip_append (by simp)]
  rfl

theorem closeUp_mem {pts : List (ℝ × ℝ)} {p : ℝ × ℝ} : p ∈ closeUp pts ↔ p ∈ pts := by
  cases pts with
  | nil => simp [closeUp]
  | cons a l => rw [closeUp_cons]; simp only [List.mem_cons, List.mem_append, List.not_mem_nil, or_false]; tauto

theorem closeUp_contains (pts : List (ℝ × ℝ)) (h : 3 ≤ pts.length) (p : ℝ × ℝ) :
    containsPoint (closeUp pts) p = containsPoint pts p := by
  cases pts with
  | nil => simp at h
  | cons a l =>
    unfold containsPoint
    rw [closeUp_edges, List.foldl_append]
    simp only [List.foldl_cons, List.foldl_nil]
    rw [crosses_false p a a Iff.rfl, Bool.xor_false]
    congr 1
    rw [closeUp_cons]
    simp only [List.length_cons, List.length_append, List.length_nil] at h ⊢
    rw [decide_eq_true h, decide_eq_true (by omega)]

theorem closeUp_containsR (A : Arith) (pts : List (ℝ × ℝ)) (h : 3 ≤ pts.length) (p : ℝ × ℝ) :
    containsPointR A (closeUp pts) p = containsPointR A pts p := by
  cases pts with
  | nil => simp at h
  | cons a l =>
    unfold containsPointR
    rw [closeUp_edges, List.foldl_append]
    simp only [List.foldl_cons, List.foldl_nil]
    rw [show crossesR A p a a = false by simp [crossesR], Bool.xor_false]
    congr 1
    rw [closeUp_cons]
    simp only [List.length_cons, List.length_append, List.length_nil] at h ⊢
    rw [decide_eq_true h, decide_eq_true (by omega)]

theorem npMin_repeat (a : ℝ) (l : List ℝ) : npMin (a :: (l ++ [a])) = npMin (a :: l) := by
  have h := npMin_le (a :: l) a List.mem_cons_self
  simp only [npMin, List.foldl_append, List.foldl_cons, List.foldl_nil] at h ⊢
  exact min_eq_left h

theorem npMax_repeat (a : ℝ) (l : List ℝ) : npMax (a :: (l ++ [a])) = npMax (a :: l) := by
  have h := le_npMax (a :: l) a List.mem_cons_self
  simp only [npMax, List.foldl_append, List.foldl_cons, List.foldl_nil] at h ⊢
  exact max_eq_left h

theorem closeUp_sampleR (A : Arith) (pts : List (ℝ × ℝ)) (h : 3 ≤ pts.length) (oX oZ L : ℝ) :
    samplePointsR A (closeUp pts) oX oZ L = samplePointsR A pts oX oZ L := by
  unfold samplePointsR
  have e : containsPointR A (closeUp pts) = containsPointR A pts := funext (closeUp_containsR A pts h)
  have g : ∀ f : ℝ × ℝ → ℝ, ∀ o, gridAxisR A ((closeUp pts).map f) o L = gridAxisR A (pts.map f) o L := by
    intro f o
    cases pts with
    | nil => rfl
    | cons a l =>
      rw [closeUp_cons]
      simp only [List.map_cons, List.map_append, List.map_nil]
      unfold gridAxisR
      rw [npMin_repeat, npMax_repeat]
  rw [e, g, g]

/-- What is assumed: a closed polygon with its magnetic axis inside; computed vertices and a computed axis within `η`; cells
large compared with `η` and with the rounding of coordinates. -/
structure MovedPlasma (A : Arith) (u : ℝ) (pts pts' : List (ℝ × ℝ)) (o o' : ℝ × ℝ) (η L M : ℝ) : Prop where
  u_nonneg : 0 ≤ u
  u_small : u ≤ 1 / 1000
  rel : ∀ x, |A.rd x - x| ≤ u * |x|
  closed : ExactlyClosed pts
  long : 3 ≤ pts.length
  near : List.Forall₂ (CloseTo η) pts' pts
  nearAxis : CloseTo η o' o
  bound : ∀ v ∈ pts, |v.1| + η ≤ M ∧ |v.2| + η ≤ M
  axis : containsPoint pts o = true
  axisFar : ¬ NearLine pts (2 * η) o
  side : 0 < L
  resolved : gridTol u M L ≤ L / 8
  fine : η ≤ L / 8

section
variable {A : Arith} {u : ℝ} {pts pts' : List (ℝ × ℝ)} {o o' : ℝ × ℝ} {η L M : ℝ}

theorem closeTo_trans {ε δ : ℝ} {p q r : ℝ × ℝ} (h : CloseTo ε p q) (g : CloseTo δ q r) : CloseTo (ε + δ) p r := by
  refine ⟨?_, ?_⟩
  · have := abs_sub_le p.1 q.1 r.1
    linarith [h.1, g.1]
  · have := abs_sub_le p.2 q.2 r.2
    linarith [h.2, g.2]

theorem closeTo_symm {ε : ℝ} {p q : ℝ × ℝ} (h : CloseTo ε p q) : CloseTo ε q p :=
  ⟨by rw [abs_sub_comm]; exact h.1, by rw [abs_sub_comm]; exact h.2⟩

theorem closeTo_mono {ε δ : ℝ} {p q : ℝ × ℝ} (h : CloseTo ε p q) (g : ε ≤ δ) : CloseTo δ p q :=
  ⟨h.1.trans g, h.2.trans g⟩

theorem nearLine_mono {ε δ : ℝ} {q : ℝ × ℝ} (h : NearLine pts ε q) (g : ε ≤ δ) : NearLine pts δ q := by
  obtain ⟨r, h1, h2⟩ := h
  exact ⟨r, h1, closeTo_mono h2 g⟩

/-- Membership in the computed polygon and in the exact one differ only next to the exact one. -/
theorem moved_mask (hc : ExactlyClosed pts) (hl : 3 ≤ pts.length) (hn : List.Forall₂ (CloseTo η) pts' pts)
    {p q : ℝ × ℝ} (hpq : CloseTo η p q) (hne : containsPoint pts' p ≠ containsPoint pts q) : NearLine pts (2 * η) q := by
  have η0 : 0 ≤ η := (abs_nonneg _).trans hpq.1
  by_cases h : containsPoint pts' p = containsPoint pts p
  · obtain ⟨e, he, t, t0, t1, d1, d2⟩ := separated pts p q (h ▸ hne)
    exact ⟨_, onLine_of_edge pts hc hl e he t t0 t1, (d1.trans hpq.1).trans (by linarith), (d2.trans hpq.2).trans (by linarith)⟩
  · obtain ⟨e, he, t, t0, t1, d⟩ := moved_polygon pts pts' η hn p h
    refine ⟨_, onLine_of_edge pts hc hl e he t t0 t1, ?_⟩
    rw [two_mul]
    exact closeTo_trans d hpq

/-- A point of the computed line is within `η` of a point of the exact line. -/
theorem moved_line (hc : ExactlyClosed pts) (hl : 3 ≤ pts.length) (hn : List.Forall₂ (CloseTo η) pts' pts)
    {r : ℝ × ℝ} (hr : OnLine (closeUp pts') r) : ∃ s, OnLine pts s ∧ CloseTo η s r := by
  have hlen := hn.length_eq
  have hget : ∀ (i : ℕ) (h : i < pts'.length) (h' : i < pts.length), CloseTo η pts'[i] pts[i] := by
    intro i h h'
    exact (List.forall₂_iff_get.1 hn).2 i h h'
  obtain ⟨i, hi, t, t0, t1, r1, r2⟩ := hr
  cases hp : pts' with
  | nil => rw [hp] at hlen; simp at hlen; omega
  | cons a m =>
  have hcl : (closeUp pts').length = pts'.length + 1 := by rw [hp, closeUp_cons]; simp
  have lt : ∀ (j : ℕ) (h : j < (closeUp pts').length) (h' : j < pts'.length), (closeUp pts')[j] = pts'[j] := by
    intro j h h'
    simp only [closeUp]
    rw [List.getElem_append_left h']
  have mid : ∀ (a a' b b' : ℝ), |a' - a| ≤ η → |b' - b| ≤ η → |(a + t * (b - a)) - (a' + t * (b' - a'))| ≤ η := by
    intro a a' b b' h1 h2
    have h1 := abs_le.1 h1
    have h2 := abs_le.1 h2
    rw [abs_le]
    have k1 := mul_le_mul_of_nonneg_left h2.1 t0
    have k2 := mul_le_mul_of_nonneg_left h2.2 t0
    have k3 := mul_le_mul_of_nonneg_left h1.1 (sub_nonneg.2 t1)
    have k4 := mul_le_mul_of_nonneg_left h1.2 (sub_nonneg.2 t1)
    constructor <;> linarith
  by_cases h : i + 1 < pts'.length
  · have h' : i + 1 < pts.length := by omega
    have c0 := hget i (by omega) (by omega)
    have c1 := hget (i + 1) h h'
    rw [lt i (by omega) (by omega), lt (i + 1) (by omega) h] at r1 r2
    refine ⟨(pts[i].1 + t * (pts[i + 1].1 - pts[i].1), pts[i].2 + t * (pts[i + 1].2 - pts[i].2)),
      ⟨i, h', t, t0, t1, rfl, rfl⟩, ?_, ?_⟩
    · rw [r1]; exact mid _ _ _ _ c0.1 c1.1
    · rw [r2]; exact mid _ _ _ _ c0.2 c1.2
  · have hi' : i + 1 = pts'.length := by omega
    have c0 := hget i (by omega) (by omega)
    have c1 := hget 0 (by omega) (by omega)
    have e1 : (closeUp pts')[i + 1] = pts'[0] := by
      simp only [closeUp]
      rw [List.getElem_append_right (by omega)]
      simp [hp]
    have e2 : pts[i] = pts[0] := by
      have h2 := hc.2
      rw [List.getLast?_eq_getElem?, List.head?_eq_getElem?, List.getElem?_eq_getElem (by omega),
        List.getElem?_eq_getElem (by omega)] at h2
      have := (Option.some.inj h2).symm
      simpa [show pts.length - 1 = i by omega] using this
    rw [lt i (by omega) (by omega), e1] at r1 r2
    rw [e2] at c0
    refine ⟨pts[0], ⟨0, by omega, 0, le_rfl, zero_le_one, by simp, by simp⟩, ?_, ?_⟩
    · have := mid _ _ _ _ c0.1 c1.1
      rw [r1]; simpa using this
    · have := mid _ _ _ _ c0.2 c1.2
      rw [r2]; simpa using this

theorem MovedPlasma.eta_nonneg (h : MovedPlasma A u pts pts' o o' η L M) : 0 ≤ η := (abs_nonneg _).trans h.nearAxis.1

theorem MovedPlasma.tol_nonneg (h : MovedPlasma A u pts pts' o o' η L M) : 0 ≤ gridTol u M L := by
  obtain ⟨v, hv⟩ := List.exists_mem_of_ne_nil pts h.closed.1
  have := (h.bound v hv).1
  exact (gridTol_bounds u M L h.u_nonneg (by linarith [abs_nonneg v.1, h.eta_nonneg]) h.side).1

/-- The computed polygon, closed up, is a polygon to which C79 applies. -/
theorem MovedPlasma.toResolved (h : MovedPlasma A u pts pts' o o' η L M) : Resolved A u (closeUp pts') o'.1 o'.2 L M := by
  have hlen := h.near.length_eq
  have hl := h.long
  refine ⟨h.u_nonneg, h.u_small, h.rel, ?_, ?_, ?_, ?_, h.side, h.resolved⟩
  · cases hp : pts' with
    | nil => rw [hp] at hlen; simp at hlen; omega
    | cons a m =>
      rw [closeUp_cons]
      refine ⟨by simp, ?_⟩
      rw [show a :: (m ++ [a]) = (a :: m) ++ [a] by simp, List.getLast?_concat]
      rfl
  · cases hp : pts' with
    | nil => rw [hp] at hlen; simp at hlen; omega
    | cons a m =>
      rw [hp] at hlen
      rw [closeUp_cons]
      simp only [List.length_cons, List.length_append, List.length_nil] at hlen ⊢
      omega
  · intro v hv
    rw [closeUp_mem] at hv
    obtain ⟨i, hi, rfl⟩ := List.getElem_of_mem hv
    have hi' : i < pts.length := by omega
    have c : CloseTo η pts'[i] pts[i] := (List.forall₂_iff_get.1 h.near).2 i hi hi'
    have b := h.bound _ (List.getElem_mem hi')
    have k1 := abs_sub_abs_le_abs_sub pts'[i].1 pts[i].1
    have k2 := abs_sub_abs_le_abs_sub pts'[i].2 pts[i].2
    exact ⟨by linarith [c.1, b.1], by linarith [c.2, b.2]⟩
  · rw [closeUp_contains _ (by omega)]
    by_contra hc
    refine h.axisFar (moved_mask h.closed h.long h.near (p := (o'.1, o'.2)) (q := o) h.nearAxis ?_)
    rw [h.axis]
    exact hc

/-- A lattice point through the computed axis, moved to the exact axis, and back. -/
theorem lattice_shift (hL : CloseTo η o' o) {q : ℝ × ℝ} (hq : Lattice o'.1 o'.2 L q) :
    Lattice o.1 o.2 L (q.1 - (o'.1 - o.1), q.2 - (o'.2 - o.2)) ∧ CloseTo η q (q.1 - (o'.1 - o.1), q.2 - (o'.2 - o.2)) := by
  obtain ⟨i, j, hi, hj⟩ := hq
  refine ⟨⟨i, j, ?_, ?_⟩, ?_, ?_⟩
  · simp only; rw [hi]; ring
  · simp only; rw [hj]; ring
  · simp only [sub_sub_cancel]; exact hL.1
  · simp only [sub_sub_cancel]; exact hL.2

/-- Every computed sample point is next to a lattice point inside the exact polygon, or next to the polygon. -/
theorem MovedPlasma.sampled (h : MovedPlasma A u pts pts' o o' η L M) (p : ℝ × ℝ)
    (hp : p ∈ samplePointsR A pts' o'.1 o'.2 L) :
    ∃ q, Lattice o.1 o.2 L q ∧ CloseTo (gridTol u M L + η) p q ∧
      (containsPoint pts q = true ∨ NearLine pts (2 * gridTol u M L + 2 * η) q) := by
  have hlen := h.near.length_eq
  have hl := h.long
  have t0 := h.tol_nonneg
  rw [← closeUp_sampleR A pts' (by omega)] at hp
  obtain ⟨q', l1, c1, m1⟩ := C79_sampled A u _ _ _ L M h.toResolved p hp
  obtain ⟨l2, c2⟩ := lattice_shift h.nearAxis l1
  refine ⟨_, l2, closeTo_trans c1 c2, ?_⟩
  rcases m1 with m1 | ⟨r, hr, cr⟩
  · rw [closeUp_contains _ (by omega)] at m1
    by_cases hq : containsPoint pts (q'.1 - (o'.1 - o.1), q'.2 - (o'.2 - o.2)) = true
    · exact Or.inl hq
    · right
      refine nearLine_mono (moved_mask h.closed h.long h.near c2 ?_) (by linarith)
      rw [m1]
      exact fun e => hq e.symm
  · obtain ⟨s, hs, cs⟩ := moved_line h.closed h.long h.near hr
    right
    exact ⟨s, hs, closeTo_mono (closeTo_trans cs (closeTo_trans cr c2)) (by linarith)⟩

/-- The computed polygon stays away from a point when the exact one does. -/
theorem MovedPlasma.far (h : MovedPlasma A u pts pts' o o' η L M) {q q' : ℝ × ℝ} (hq : CloseTo η q' q)
    (hfar : ¬ NearLine pts (2 * gridTol u M L + 2 * η) q) :
    ¬ NearLine (closeUp pts') (2 * gridTol u M L) q' ∧ containsPoint (closeUp pts') q' = containsPoint pts q := by
  have hlen := h.near.length_eq
  have hl := h.long
  have t0 := h.tol_nonneg
  constructor
  · rintro ⟨r, hr, cr⟩
    obtain ⟨s, hs, cs⟩ := moved_line h.closed h.long h.near hr
    exact hfar ⟨s, hs, closeTo_mono (closeTo_trans cs (closeTo_trans cr hq)) (by linarith)⟩
  · rw [closeUp_contains _ (by omega)]
    by_contra hc
    exact hfar (nearLine_mono (moved_mask h.closed h.long h.near hq hc) (by linarith))

theorem lattice_back (hL : CloseTo η o' o) {q : ℝ × ℝ} (hq : Lattice o.1 o.2 L q) :
    Lattice o'.1 o'.2 L (q.1 + (o'.1 - o.1), q.2 + (o'.2 - o.2)) ∧ CloseTo η (q.1 + (o'.1 - o.1), q.2 + (o'.2 - o.2)) q := by
  obtain ⟨i, j, hi, hj⟩ := hq
  refine ⟨⟨i, j, ?_, ?_⟩, ?_, ?_⟩
  · simp only; rw [hi]; ring
  · simp only; rw [hj]; ring
  · simp only [add_sub_cancel_left]; exact hL.1
  · simp only [add_sub_cancel_left]; exact hL.2

/-- Every lattice point inside the exact polygon and away from it is sampled, exactly once. -/
theorem MovedPlasma.covered (h : MovedPlasma A u pts pts' o o' η L M) (q : ℝ × ℝ) (hq : Lattice o.1 o.2 L q)
    (hin : containsPoint pts q = true) (hfar : ¬ NearLine pts (2 * gridTol u M L + 2 * η) q) :
    ∃! p, p ∈ samplePointsR A pts' o'.1 o'.2 L ∧ CloseTo (gridTol u M L + η) p q := by
  have hlen := h.near.length_eq
  have hl := h.long
  have t0 := h.tol_nonneg
  rw [← closeUp_sampleR A pts' (by omega)]
  obtain ⟨l1, c1⟩ := lattice_back (L := L) h.nearAxis hq
  obtain ⟨f1, f2⟩ := h.far c1 hfar
  obtain ⟨p, ⟨p1, p2⟩, p3⟩ := C79_covered A u _ _ _ L M h.toResolved _ l1 (f2.trans hin) f1
  refine ⟨p, ⟨p1, closeTo_trans p2 c1⟩, ?_⟩
  rintro p' ⟨m1, m2⟩
  refine p3 p' ⟨m1, ?_⟩
  obtain ⟨q2, l2, c2, -⟩ := C79_sampled A u _ _ _ L M h.toResolved p' m1
  have c3 := closeTo_trans (closeTo_symm c2) (closeTo_trans m2 (closeTo_symm c1))
  have small : gridTol u M L + (gridTol u M L + η + η) < L := by linarith [h.resolved, h.fine, h.side]
  have : q2 = (q.1 + (o'.1 - o.1), q.2 + (o'.2 - o.2)) := by
    obtain ⟨i, j, hi, hj⟩ := l1
    obtain ⟨i', j', hi', hj'⟩ := l2
    simp only at hi hj
    have d1 := c3.1
    have d2 := c3.2
    simp only at d1 d2
    rw [hi, hi'] at d1
    rw [hj, hj'] at d2
    have e1 := lattice_eq _ L h.side _ _ (d1.trans_lt small)
    have e2 := lattice_eq _ L h.side _ _ (d2.trans_lt small)
    exact Prod.ext (by rw [hi', hi, e1]) (by rw [hj', hj, e2])
  rw [← this]
  exact c2

/-- If the exact polygon stays away from all lattice points, the computed sample is the exact one, entry by entry. -/
theorem MovedPlasma.same_cells (h : MovedPlasma A u pts pts' o o' η L M)
    (hfar : ∀ q, Lattice o.1 o.2 L q → ¬ NearLine pts (2 * gridTol u M L + 2 * η) q) :
    List.Forall₂ (CloseTo (gridTol u M L + η)) (samplePointsR A pts' o'.1 o'.2 L)
      (samplePoints (pts.map Prod.fst) (pts.map Prod.snd) (containsPoint pts) o.1 o.2 L) := by
  have hlen := h.near.length_eq
  have hl := h.long
  rw [← closeUp_sampleR A pts' (by omega)]
  have S := C79_same_cells A u _ _ _ L M h.toResolved (fun q' hq' => by
    obtain ⟨l2, c2⟩ := lattice_shift h.nearAxis hq'
    exact (h.far c2 (hfar _ l2)).1)
  have ex := C12_exact (pts.map Prod.fst) (pts.map Prod.snd) (containsPoint pts) (C65_within_box pts) o.1 o.2 L h.side
  have ex' := C12_exact ((closeUp pts').map Prod.fst) ((closeUp pts').map Prod.snd) (containsPoint (closeUp pts'))
    (C65_within_box _) o'.1 o'.2 L h.side
  have T : List.Forall₂ (fun a b : ℝ × ℝ => a = (b.1 + (o'.1 - o.1), b.2 + (o'.2 - o.2)))
      (samplePoints ((closeUp pts').map Prod.fst) ((closeUp pts').map Prod.snd) (containsPoint (closeUp pts')) o'.1 o'.2 L)
      (samplePoints (pts.map Prod.fst) (pts.map Prod.snd) (containsPoint pts) o.1 o.2 L) := by
    refine forall₂_of_sorted (fun p q => p.1 < q.1 ∨ (p.1 = q.1 ∧ p.2 < q.2))
      (fun p q => p.1 < q.1 ∨ (p.1 = q.1 ∧ p.2 < q.2)) _ ?_ ?_ _ _
      (C16_order _ _ _ _ _ L h.side) (C16_order _ _ _ _ _ L h.side) ?_ ?_ ?_ ?_
    · rintro b (h' | ⟨-, h'⟩) <;> exact lt_irrefl _ h'
    · rintro a b c (h1 | ⟨h1, h2⟩) (h3 | ⟨h3, h4⟩)
      · exact Or.inl (h1.trans h3)
      · exact Or.inl (h3 ▸ h1)
      · exact Or.inl (h1 ▸ h3)
      · exact Or.inr ⟨h1.trans h3, h2.trans h4⟩
    · intro a ha
      obtain ⟨l1, c1⟩ := (ex' a).1 ha
      obtain ⟨l2, c2⟩ := lattice_shift h.nearAxis l1
      refine ⟨_, (ex _).2 ⟨l2, ?_⟩, ?_⟩
      · rw [← (h.far c2 (hfar _ l2)).2]; exact c1
      · exact Prod.ext (by simp) (by simp)
    · intro b hb
      obtain ⟨l1, c1⟩ := (ex b).1 hb
      obtain ⟨l2, c2⟩ := lattice_back (L := L) h.nearAxis l1
      exact ⟨_, (ex' _).2 ⟨l2, by rw [(h.far c2 (hfar _ l1)).2]; exact c1⟩, rfl⟩
    · rintro a - b - b' - e e'
      rw [e] at e'
      have := Prod.mk.inj e'
      exact Prod.ext (by linarith [this.1]) (by linarith [this.2])
    · rintro a - a' - b - b' - hlt e e'
      rw [e, e'] at hlt
      simpa using hlt
  rw [List.forall₂_iff_get] at S T ⊢
  refine ⟨S.1.trans T.1, fun i h1 h2 => ?_⟩
  have s := S.2 i h1 (S.1 ▸ h1)
  have t := T.2 i (S.1 ▸ h1) h2
  refine closeTo_trans s ?_
  rw [t]
  exact ⟨by simpa using h.nearAxis.1, by simpa using h.nearAxis.2⟩

end
end
end TNS
