import Verif.Lemmas.RoundedGrid
import Verif.Spec.RoundedSpace
import Verif.Props.PointInPath
import Verif.Props.Rounded
import Verif.Props.Green
/-
C79: the sampled cells in floating point arithmetic.
-/

set_option autoImplicit false

namespace TNS
open Spec

theorem gridTol_bounds (u M L : ℝ) (h0 : 0 ≤ u) (hM : 0 ≤ M) (hL : 0 < L) :
    0 ≤ gridTol u M L ∧ 18 * u * M ≤ gridTol u M L := by
  unfold gridTol
  have h1 : 0 ≤ 2 * M / L := by positivity
  have h2 : 0 ≤ u * (M + 3 * L) := by positivity
  refine ⟨by positivity, ?_⟩
  have h3 : 60 * (u * (M + 3 * L)) ≤ 3 * (2 * M / L + 20) * (u * (M + 3 * L)) :=
    mul_le_mul_of_nonneg_right (by linarith) h2
  have h4 : 0 ≤ u * M := by positivity
  have h5 : 0 ≤ u * L := by positivity
  nlinarith

/-- Vertices bound the extreme coordinates. -/
theorem npExt_bound (c : List ℝ) (M : ℝ) (hM : ∀ x ∈ c, |x| ≤ M) (hc : c ≠ []) :
    |npMin c| ≤ M ∧ |npMax c| ≤ M := by
  cases c with
  | nil => exact absurd rfl hc
  | cons a l =>
    have key : ∀ (l : List ℝ) (a : ℝ), (∀ x ∈ a :: l, |x| ≤ M) →
        |l.foldl min a| ≤ M ∧ |l.foldl max a| ≤ M := by
      intro l
      induction l with
      | nil => intro a h; exact ⟨h a (by simp), h a (by simp)⟩
      | cons b l ih =>
        intro a h
        simp only [List.foldl_cons]
        refine ⟨(ih (min a b) ?_).1, (ih (max a b) ?_).2⟩
        · intro x hx
          rcases List.mem_cons.1 hx with rfl | hx
          · rcases min_choice a b with e | e <;> rw [e]
            · exact h a (by simp)
            · exact h b (by simp)
          · exact h x (by simp [hx])
        · intro x hx
          rcases List.mem_cons.1 hx with rfl | hx
          · rcases max_choice a b with e | e <;> rw [e]
            · exact h a (by simp)
            · exact h b (by simp)
          · exact h x (by simp [hx])
    exact key l a hM

/-- The axis lemma with the common tolerance. -/
theorem axis_tol (A : Arith) (u : ℝ) (h0 : 0 ≤ u) (h1 : u ≤ 1 / 1000)
    (hA : ∀ x, |A.rd x - x| ≤ u * |x|) (c : List ℝ) (o L M : ℝ) (hL : 0 < L)
    (hlo : npMin c ≤ o) (hhi : o ≤ npMax c) (hMlo : |npMin c| ≤ M) (hMhi : |npMax c| ≤ M)
    (hsmall : gridTol u M L ≤ L / 8) :
    ∃ (k : ℤ) (n : ℕ) (g : ℕ → ℝ), gridAxisR A c o L = (List.range n).map g ∧
      (∀ i : ℕ, i < n → |g i - (o + L * ((i : ℝ) - k))| ≤ gridTol u M L) ∧
      ∀ j : ℤ, npMin c ≤ o + L * j → o + L * j ≤ npMax c → ∃ i : ℕ, i < n ∧ (i : ℤ) = j + k := by
  have hM0 : 0 ≤ M := (abs_nonneg _).trans hMlo
  have hle : 3 * ((npMax c - npMin c) / L + 20) * (u * (M + 3 * L)) ≤ gridTol u M L := by
    unfold gridTol
    have a1 := (abs_le.1 hMlo).1
    have a2 := (abs_le.1 hMhi).2
    have : (npMax c - npMin c) / L ≤ 2 * M / L := div_le_div_of_nonneg_right (by linarith) hL.le
    exact mul_le_mul_of_nonneg_right (by linarith) (by positivity)
  obtain ⟨k, n, g, e1, e2, e3⟩ := gridAxisR_error A u h0 h1 hA c o L M _ hL hlo hhi hMlo hMhi rfl
    (by linarith)
  exact ⟨k, n, g, e1, fun i hi => (e2 i hi).trans hle, e3⟩

/-- Points of the tested edges are points of the polygon. -/
theorem onLine_of_edge (pts : List (ℝ × ℝ)) (hc : ExactlyClosed pts) (hl : 3 ≤ pts.length)
    (e : (ℝ × ℝ) × (ℝ × ℝ)) (he : e ∈ pathEdges pts) (t : ℝ) (t0 : 0 ≤ t) (t1 : t ≤ 1) :
    OnLine pts (edgePoint e.1 e.2 t) := by
  cases pts with
  | nil => simp at hl
  | cons a l =>
    obtain ⟨i, hi, rfl⟩ := List.getElem_of_mem he
    simp only [pathEdges, List.length_zip, List.length_cons, List.length_append, List.length_nil] at hi
    have hi' : i < l.length + 1 := by omega
    simp only [pathEdges, List.getElem_zip, edgePoint]
    by_cases h : i < l.length
    · refine ⟨i, by simp; omega, t, t0, t1, ?_, ?_⟩ <;>
        simp [List.getElem_append_left h]
    · have hil : i = l.length := by omega
      subst hil
      have hlast : (a :: l)[l.length] = a := by
        have h2 := hc.2
        rw [List.head?_cons, List.getLast?_eq_getElem?] at h2
        simp only [List.length_cons, Nat.add_sub_cancel] at h2
        rw [List.getElem?_eq_getElem (by simp)] at h2
        exact (Option.some.inj h2).symm
      refine ⟨0, by omega, 0, le_rfl, zero_le_one, ?_, ?_⟩ <;> simp [hlast]

section
variable (A : Arith) (u : ℝ) (pts : List (ℝ × ℝ)) (oX oZ L M : ℝ)

/-- The rounded grid: indices, coordinates, coverage. -/
theorem rounded_grid (h : Resolved A u pts oX oZ L M) :
    ∃ (k k' : ℤ) (n n' : ℕ) (g g' : ℕ → ℝ),
      samplePointsR A pts oX oZ L =
        (meshPoints ((List.range n).map g) ((List.range n').map g')).filter (containsPointR A pts) ∧
      (∀ i : ℕ, i < n → |g i - (oX + L * ((i : ℝ) - k))| ≤ gridTol u M L) ∧
      (∀ i : ℕ, i < n' → |g' i - (oZ + L * ((i : ℝ) - k'))| ≤ gridTol u M L) ∧
      ∀ q : ℝ × ℝ, containsPoint pts q = true → ∀ j j' : ℤ, q.1 = oX + L * j → q.2 = oZ + L * j' →
        (∃ i : ℕ, i < n ∧ (i : ℤ) = j + k) ∧ ∃ i : ℕ, i < n' ∧ (i : ℤ) = j' + k' := by
  have hne : pts ≠ [] := h.closed.1
  have hb1 := npExt_bound (pts.map Prod.fst) M (by
    intro x hx
    obtain ⟨v, hv, rfl⟩ := List.mem_map.1 hx
    exact (h.bound v hv).1) (by simpa using hne)
  have hb2 := npExt_bound (pts.map Prod.snd) M (by
    intro x hx
    obtain ⟨v, hv, rfl⟩ := List.mem_map.1 hx
    exact (h.bound v hv).2) (by simpa using hne)
  have hin : ∀ q : ℝ × ℝ, containsPoint pts q = true →
      npMin (pts.map Prod.fst) ≤ q.1 ∧ q.1 ≤ npMax (pts.map Prod.fst) ∧
      npMin (pts.map Prod.snd) ≤ q.2 ∧ q.2 ≤ npMax (pts.map Prod.snd) := by
    intro q hq
    obtain ⟨⟨a, ha, ha'⟩, ⟨b, hb, hb'⟩, ⟨c, hc1, hc'⟩, ⟨d, hd, hd'⟩⟩ := C65_within_box pts q hq
    exact ⟨(npMin_le _ a ha).trans ha', hb'.trans (le_npMax _ b hb),
      (npMin_le _ c hc1).trans hc', hd'.trans (le_npMax _ d hd)⟩
  obtain ⟨o1, o2, o3, o4⟩ := hin _ h.axis
  obtain ⟨k, n, g, e1, e2, e3⟩ := axis_tol A u h.u_nonneg h.u_small h.rel (pts.map Prod.fst) oX L M h.side
    o1 o2 hb1.1 hb1.2 h.resolved
  obtain ⟨k', n', g', e1', e2', e3'⟩ := axis_tol A u h.u_nonneg h.u_small h.rel (pts.map Prod.snd) oZ L M h.side
    o3 o4 hb2.1 hb2.2 h.resolved
  refine ⟨k, k', n, n', g, g', ?_, e2, e2', ?_⟩
  · unfold samplePointsR meshPoints
    rw [e1, e1']
  · intro q hq j j' hj hj'
    obtain ⟨q1, q2, q3, q4⟩ := hin q hq
    exact ⟨e3 j (hj ▸ q1) (hj ▸ q2), e3' j' (hj' ▸ q3) (hj' ▸ q4)⟩

/-- If the computed mask of a computed point differs from the exact mask of its lattice point, the
polygon passes nearby. -/
theorem mask_near (h : Resolved A u pts oX oZ L M) (p q : ℝ × ℝ) (hpq : CloseTo (gridTol u M L) p q)
    (hne : containsPointR A pts p ≠ containsPoint pts q) : NearLine pts (2 * gridTol u M L) q := by
  have hM0 : 0 ≤ M := by
    obtain ⟨v, hv⟩ := List.exists_mem_of_ne_nil pts h.closed.1
    exact (abs_nonneg _).trans (h.bound v hv).1
  obtain ⟨t0, t1⟩ := gridTol_bounds u M L h.u_nonneg hM0 h.side
  by_cases hc : containsPoint pts p = containsPoint pts q
  · rw [← hc] at hne
    obtain ⟨e, he, t, a1, a2, a3, a4⟩ := containsPointR_near A u h.u_nonneg
      (h.u_small.trans (by norm_num)) h.rel pts p hne
    refine ⟨_, onLine_of_edge pts h.closed h.long e he t a1 a2, ?_, ?_⟩
    · have hm : e.1 ∈ pts ∧ e.2 ∈ pts := by
        cases pts with
        | nil => simp [pathEdges] at he
        | cons a l =>
          obtain ⟨m1, m2⟩ := List.of_mem_zip (show (e.1, e.2) ∈ List.zip (a :: l) (l ++ [a]) from he)
          refine ⟨m1, ?_⟩
          simp only [List.mem_append, List.mem_singleton] at m2
          rcases m2 with m2 | m2
          · exact List.mem_cons_of_mem _ m2
          · rw [m2]; exact List.mem_cons_self
      have b1 := abs_le.1 (h.bound _ hm.1).1
      have b2 := abs_le.1 (h.bound _ hm.2).1
      have b3 : |e.1.1 - e.2.1| ≤ 2 * M := by rw [abs_le]; constructor <;> linarith [b1.1, b1.2, b2.1, b2.2]
      have b4 : 9 * u * |e.1.1 - e.2.1| ≤ 9 * u * (2 * M) :=
        mul_le_mul_of_nonneg_left b3 (by have := h.u_nonneg; positivity)
      have b5 := abs_sub_le (edgePoint e.1 e.2 t).1 p.1 q.1
      have := hpq.1
      linarith
    · rw [a3]
      linarith [hpq.2]
  · obtain ⟨e, he, t, a1, a2, a3, a4⟩ := separated pts p q hc
    refine ⟨_, onLine_of_edge pts h.closed h.long e he t a1 a2, ?_, ?_⟩
    · linarith [hpq.1]
    · linarith [hpq.2]

/-- Two lattice coordinates that are closer than a cell are equal. -/
theorem lattice_eq (o L : ℝ) (hL : 0 < L) (i j : ℤ) (h : |(o + L * i) - (o + L * j)| < L) : i = j := by
  have e : (o + L * i) - (o + L * j) = L * ((i - j : ℤ) : ℝ) := by push_cast; ring
  rw [e, abs_mul, abs_of_pos hL] at h
  have h1 : |((i - j : ℤ) : ℝ)| < 1 := by
    by_contra hc
    have := mul_le_mul_of_nonneg_left (not_lt.1 hc) hL.le
    linarith
  have h2 : |(i - j : ℤ)| < 1 := by exact_mod_cast h1
  have := abs_lt.1 h2
  omega

/-- Computed points close to the same lattice point, one axis. -/
theorem coordinate_unique (o L ε : ℝ) (hL : 0 < L) (hε : ε ≤ L / 8) (g : ℕ → ℝ) (k : ℤ) (n : ℕ)
    (hg : ∀ i : ℕ, i < n → |g i - (o + L * ((i : ℝ) - k))| ≤ ε) (i i' : ℕ) (hi : i < n) (hi' : i' < n)
    (q : ℝ) (h : |g i - q| ≤ ε) (h' : |g i' - q| ≤ ε) : i = i' := by
  have a := hg i hi
  have b := hg i' hi'
  rw [abs_le] at a b h h'
  have := lattice_eq o L hL ((i : ℤ) - k) ((i' : ℤ) - k) (by
    rw [abs_lt]; push_cast; constructor <;> linarith [a.1, a.2, b.1, b.2, h.1, h.2, h'.1, h'.2])
  omega

/-- **C79**, computed points: every point sampled in floating point arithmetic is, up to `gridTol`
along both axes, a point of the lattice through the magnetic axis, and that point is inside the LCFS
unless the LCFS passes within twice that of it. -/
theorem C79_sampled (h : Resolved A u pts oX oZ L M) (p : ℝ × ℝ) (hp : p ∈ samplePointsR A pts oX oZ L) :
    ∃ q, Lattice oX oZ L q ∧ CloseTo (gridTol u M L) p q ∧
      (containsPoint pts q = true ∨ NearLine pts (2 * gridTol u M L) q) := by
  obtain ⟨k, k', n, n', g, g', e1, e2, e3, e4⟩ := rounded_grid A u pts oX oZ L M h
  rw [e1, List.mem_filter, mem_meshPoints] at hp
  obtain ⟨⟨hx, hz⟩, hin⟩ := hp
  obtain ⟨i, hi, hx⟩ := List.mem_map.1 hx
  obtain ⟨j, hj, hz⟩ := List.mem_map.1 hz
  have hcl : CloseTo (gridTol u M L) p (oX + L * ((i : ℝ) - k), oZ + L * ((j : ℝ) - k')) := by
    refine ⟨?_, ?_⟩
    · rw [← hx]; exact e2 i (List.mem_range.1 hi)
    · rw [← hz]; exact e3 j (List.mem_range.1 hj)
  refine ⟨_, ⟨(i : ℤ) - k, (j : ℤ) - k', by push_cast; rfl, by push_cast; rfl⟩, hcl, ?_⟩
  by_cases hq : containsPoint pts (oX + L * ((i : ℝ) - k), oZ + L * ((j : ℝ) - k')) = true
  · exact Or.inl hq
  · right
    refine mask_near A u pts oX oZ L M h p _ hcl ?_
    rw [hin]
    exact fun h' => hq h'.symm

/-- **C79**, no cell is lost: every lattice point inside the LCFS is sampled, exactly once, up to
`gridTol`, unless the LCFS passes within twice that of it. -/
theorem C79_covered (h : Resolved A u pts oX oZ L M) (q : ℝ × ℝ) (hq : Lattice oX oZ L q)
    (hin : containsPoint pts q = true) (hfar : ¬ NearLine pts (2 * gridTol u M L) q) :
    ∃! p, p ∈ samplePointsR A pts oX oZ L ∧ CloseTo (gridTol u M L) p q := by
  obtain ⟨k, k', n, n', g, g', e1, e2, e3, e4⟩ := rounded_grid A u pts oX oZ L M h
  obtain ⟨j, j', hj, hj'⟩ := hq
  obtain ⟨⟨i, hi, hik⟩, ⟨i', hi', hik'⟩⟩ := e4 q hin j j' hj hj'
  have c1 : (i : ℝ) = j + k := by exact_mod_cast hik
  have c2 : (i' : ℝ) = j' + k' := by exact_mod_cast hik'
  have hcl : CloseTo (gridTol u M L) (g i, g' i') q := by
    refine ⟨?_, ?_⟩
    · have := e2 i hi
      rw [c1, add_sub_cancel_right, ← hj] at this
      exact this
    · have := e3 i' hi'
      rw [c2, add_sub_cancel_right, ← hj'] at this
      exact this
  refine ⟨(g i, g' i'), ⟨?_, hcl⟩, ?_⟩
  · rw [e1, List.mem_filter, mem_meshPoints]
    refine ⟨⟨List.mem_map_of_mem (List.mem_range.2 hi), List.mem_map_of_mem (List.mem_range.2 hi')⟩, ?_⟩
    by_contra hc
    refine hfar (mask_near A u pts oX oZ L M h _ q hcl ?_)
    rw [hin]
    exact hc
  · rintro p ⟨hp, hpc⟩
    rw [e1, List.mem_filter, mem_meshPoints] at hp
    obtain ⟨⟨hx, hz⟩, -⟩ := hp
    obtain ⟨m, hm, hx⟩ := List.mem_map.1 hx
    obtain ⟨m', hm', hz⟩ := List.mem_map.1 hz
    rw [List.mem_range] at hm hm'
    have d1 := coordinate_unique oX L _ h.side h.resolved g k n e2 m i hm hi q.1
      (by rw [hx]; exact hpc.1) hcl.1
    have d2 := coordinate_unique oZ L _ h.side h.resolved g' k' n' e3 m' i' hm' hi' q.2
      (by rw [hz]; exact hpc.2) hcl.2
    exact Prod.ext (by rw [← hx, d1]) (by rw [← hz, d2])

/-- **C79**, magnetic axis: unless the LCFS passes within twice `gridTol` of the magnetic axis, one cell
is centred on it up to `gridTol`. -/
theorem C79_o_point (h : Resolved A u pts oX oZ L M) (hfar : ¬ NearLine pts (2 * gridTol u M L) (oX, oZ)) :
    ∃ p ∈ samplePointsR A pts oX oZ L, CloseTo (gridTol u M L) p (oX, oZ) := by
  obtain ⟨p, ⟨h1, h2⟩, _⟩ := C79_covered A u pts oX oZ L M h (oX, oZ) ⟨0, 0, by simp, by simp⟩ h.axis hfar
  exact ⟨p, h1, h2⟩

theorem axis_sorted (o L ε : ℝ) (hL : 0 < L) (hε : ε ≤ L / 8) (g : ℕ → ℝ) (k : ℤ) (n : ℕ)
    (hg : ∀ i : ℕ, i < n → |g i - (o + L * ((i : ℝ) - k))| ≤ ε) :
    ((List.range n).map g).Pairwise (· < ·) := by
  rw [List.pairwise_map]
  have hm : ∀ a b : ℕ, a < n → b < n → a < b → g a < g b := by
    intro a b ha hb hab
    have h1 := abs_le.1 (hg a ha)
    have h2 := abs_le.1 (hg b hb)
    have h3 : (a : ℝ) + 1 ≤ b := by exact_mod_cast hab
    have h4 := mul_le_mul_of_nonneg_left h3 hL.le
    linarith [h1.2, h2.1]
  exact List.pairwise_lt_range.imp_of_mem fun ha hb hab =>
    hm _ _ (List.mem_range.1 ha) (List.mem_range.1 hb) hab

/-- **C79**, order: also in floating point arithmetic the points come with non-decreasing radius and, at
equal radius, strictly increasing height; in particular no point is repeated. -/
theorem C79_order (h : Resolved A u pts oX oZ L M) :
    (samplePointsR A pts oX oZ L).Pairwise (fun p q => p.1 < q.1 ∨ (p.1 = q.1 ∧ p.2 < q.2)) := by
  obtain ⟨k, k', n, n', g, g', e1, e2, e3, e4⟩ := rounded_grid A u pts oX oZ L M h
  rw [e1]
  exact (meshPoints_sorted _ _ (axis_sorted oX L _ h.side h.resolved g k n e2)
    (axis_sorted oZ L _ h.side h.resolved g' k' n' e3)).filter _

/-- Two sorted lists in an order-preserving one-to-one correspondence correspond entry by entry. -/
theorem forall₂_of_sorted {α β : Type} (lt : α → α → Prop) (lt' : β → β → Prop) (R : α → β → Prop)
    (irr : ∀ b, ¬ lt' b b) (tr : ∀ a b c, lt' a b → lt' b c → lt' a c)
    (l : List α) (m : List β) (hl : l.Pairwise lt) (hm : m.Pairwise lt')
    (h1 : ∀ a ∈ l, ∃ b ∈ m, R a b) (h2 : ∀ b ∈ m, ∃ a ∈ l, R a b)
    (hu : ∀ a ∈ l, ∀ b ∈ m, ∀ b' ∈ m, R a b → R a b' → b = b')
    (hmono : ∀ a ∈ l, ∀ a' ∈ l, ∀ b ∈ m, ∀ b' ∈ m, lt a a' → R a b → R a' b' → lt' b b') :
    List.Forall₂ R l m := by
  induction l generalizing m with
  | nil =>
    cases m with
    | nil => exact .nil
    | cons b m =>
      obtain ⟨a, ha, _⟩ := h2 b List.mem_cons_self
      simp at ha
  | cons a l ih =>
    cases m with
    | nil =>
      obtain ⟨b, hb, _⟩ := h1 a List.mem_cons_self
      simp at hb
    | cons b m =>
      rw [List.pairwise_cons] at hl hm
      have hab : R a b := by
        obtain ⟨b', hb', hR⟩ := h1 a List.mem_cons_self
        rcases List.mem_cons.1 hb' with rfl | hb''
        · exact hR
        obtain ⟨a', ha', hR'⟩ := h2 b List.mem_cons_self
        rcases List.mem_cons.1 ha' with rfl | ha''
        · exact hR'
        have x1 := hm.1 b' hb''
        have x2 := hmono a List.mem_cons_self a' ha' b' hb' b List.mem_cons_self (hl.1 a' ha'') hR hR'
        exact absurd (tr _ _ _ x1 x2) (irr _)
      refine .cons hab (ih m hl.2 hm.2 ?_ ?_ ?_ ?_)
      · intro x hx
        obtain ⟨y, hy, hR⟩ := h1 x (List.mem_cons_of_mem _ hx)
        rcases List.mem_cons.1 hy with rfl | hy'
        · exact absurd (hmono a List.mem_cons_self x (List.mem_cons_of_mem _ hx) y List.mem_cons_self y
            List.mem_cons_self (hl.1 x hx) hab hR) (irr _)
        · exact ⟨y, hy', hR⟩
      · intro y hy
        obtain ⟨x, hx, hR⟩ := h2 y (List.mem_cons_of_mem _ hy)
        rcases List.mem_cons.1 hx with rfl | hx'
        · have := hu x List.mem_cons_self y (List.mem_cons_of_mem _ hy) b List.mem_cons_self hR hab
          subst this
          exact absurd (hm.1 _ hy) (irr _)
        · exact ⟨x, hx', hR⟩
      · exact fun x hx y hy y' hy' => hu x (List.mem_cons_of_mem _ hx) y (List.mem_cons_of_mem _ hy) y'
          (List.mem_cons_of_mem _ hy')
      · exact fun x hx x' hx' y hy y' hy' => hmono x (List.mem_cons_of_mem _ hx) x' (List.mem_cons_of_mem _ hx')
          y (List.mem_cons_of_mem _ hy) y' (List.mem_cons_of_mem _ hy')

/-- **C79**, same cells: if the LCFS passes within twice `gridTol` of no lattice point, the computed
sample is the exact one, entry by entry, with coordinates off by at most `gridTol`. -/
theorem C79_same_cells (h : Resolved A u pts oX oZ L M)
    (hfar : ∀ q, Lattice oX oZ L q → ¬ NearLine pts (2 * gridTol u M L) q) :
    List.Forall₂ (CloseTo (gridTol u M L)) (samplePointsR A pts oX oZ L)
      (samplePoints (pts.map Prod.fst) (pts.map Prod.snd) (containsPoint pts) oX oZ L) := by
  have hbox := C65_within_box pts
  have ex := C12_exact (pts.map Prod.fst) (pts.map Prod.snd) (containsPoint pts) hbox oX oZ L h.side
  have hε := h.resolved
  have hL := h.side
  -- lattice coordinates from closeness
  have coord : ∀ (o x x' : ℝ) (i j : ℤ), |x - (o + L * i)| ≤ gridTol u M L →
      |x' - (o + L * j)| ≤ gridTol u M L → x ≤ x' → i ≤ j := by
    intro o x x' i j h1 h2 hx
    by_contra hc
    have h3 : j + 1 ≤ i := by omega
    have h4 : (j : ℝ) + 1 ≤ i := by exact_mod_cast h3
    have h5 := mul_le_mul_of_nonneg_left h4 hL.le
    have h1 := abs_le.1 h1
    have h2 := abs_le.1 h2
    linarith [h1.1, h2.2]
  refine forall₂_of_sorted (fun p q => p.1 < q.1 ∨ (p.1 = q.1 ∧ p.2 < q.2))
    (fun p q => p.1 < q.1 ∨ (p.1 = q.1 ∧ p.2 < q.2)) _ ?_ ?_ _ _
    (C79_order A u pts oX oZ L M h) (C16_order _ _ _ oX oZ L hL) ?_ ?_ ?_ ?_
  · rintro b (h' | ⟨-, h'⟩) <;> exact lt_irrefl _ h'
  · rintro a b c (h1 | ⟨h1, h2⟩) (h3 | ⟨h3, h4⟩)
    · exact Or.inl (h1.trans h3)
    · exact Or.inl (h3 ▸ h1)
    · exact Or.inl (h1 ▸ h3)
    · exact Or.inr ⟨h1.trans h3, h2.trans h4⟩
  · intro p hp
    obtain ⟨q, q1, q2, q3⟩ := C79_sampled A u pts oX oZ L M h p hp
    exact ⟨q, (ex q).2 ⟨q1, q3.resolve_right (hfar q q1)⟩, q2⟩
  · intro q hq
    obtain ⟨q1, q2⟩ := (ex q).1 hq
    obtain ⟨p, ⟨p1, p2⟩, _⟩ := C79_covered A u pts oX oZ L M h q q1 q2 (hfar q q1)
    exact ⟨p, p1, p2⟩
  · intro p _ q hq q' hq' c c'
    obtain ⟨⟨i, j, hi, hj⟩, -⟩ := (ex q).1 hq
    obtain ⟨⟨i', j', hi', hj'⟩, -⟩ := (ex q').1 hq'
    have c1 := c.1
    have c2 := c.2
    have c1' := c'.1
    have c2' := c'.2
    rw [hi] at c1; rw [hj] at c2; rw [hi'] at c1'; rw [hj'] at c2'
    have e1 : i = i' := le_antisymm (coord _ _ _ _ _ c1 c1' le_rfl) (coord _ _ _ _ _ c1' c1 le_rfl)
    have e2 : j = j' := le_antisymm (coord _ _ _ _ _ c2 c2' le_rfl) (coord _ _ _ _ _ c2' c2 le_rfl)
    exact Prod.ext (by rw [hi, hi', e1]) (by rw [hj, hj', e2])
  · intro p hp p' hp' q hq q' hq' hlt c c'
    obtain ⟨lq, inq⟩ := (ex q).1 hq
    obtain ⟨lq', inq'⟩ := (ex q').1 hq'
    have uniq := C79_covered A u pts oX oZ L M h q lq inq (hfar q lq)
    obtain ⟨i, j, hi, hj⟩ := lq
    obtain ⟨i', j', hi', hj'⟩ := lq'
    have c1 := c.1
    have c2 := c.2
    have c1' := c'.1
    have c2' := c'.2
    rw [hi] at c1; rw [hj] at c2; rw [hi'] at c1'; rw [hj'] at c2'
    have hii : i ≤ i' := by
      rcases hlt with h' | ⟨h', -⟩
      · exact coord _ _ _ _ _ c1 c1' h'.le
      · exact coord _ _ _ _ _ c1 c1' h'.le
    rcases hii.lt_or_eq with h' | h'
    · left
      rw [hi, hi']
      have : (i : ℝ) < i' := by exact_mod_cast h'
      linarith [mul_lt_mul_of_pos_left this hL]
    · right
      refine ⟨by rw [hi, hi', h'], ?_⟩
      -- equal columns: the computed radii are equal too
      have hx : p.1 = p'.1 := by
        obtain ⟨k, k', n, n', g, g', e1, e2, e3, e4⟩ := rounded_grid A u pts oX oZ L M h
        rw [e1, List.mem_filter, mem_meshPoints] at hp hp'
        obtain ⟨m, hm, hx⟩ := List.mem_map.1 hp.1.1
        obtain ⟨m', hm', hx'⟩ := List.mem_map.1 hp'.1.1
        have := coordinate_unique oX L _ hL hε g k n e2 m m' (List.mem_range.1 hm) (List.mem_range.1 hm')
          (oX + L * i) (by rw [hx]; exact c1) (by rw [hx', h']; exact c1')
        rw [← hx, ← hx', this]
      have hz : p.2 < p'.2 := by
        rcases hlt with h'' | ⟨-, h''⟩
        · exact absurd hx h''.ne
        · exact h''
      have hjj := coord _ _ _ _ _ c2 c2' hz.le
      rcases hjj.lt_or_eq with h'' | h''
      · rw [hj, hj']
        have : (j : ℝ) < j' := by exact_mod_cast h''
        linarith [mul_lt_mul_of_pos_left this hL]
      · have hqq : q = q' := Prod.ext (by rw [hi, hi', h']) (by rw [hj, hj', h''])
        subst hqq
        have := uniq.unique ⟨hp, c⟩ ⟨hp', c'⟩
        subst this
        exact absurd hz (lt_irrefl _)

end

/-- **C79**, what `sample_space_2d` returns: entry `i` of the returned radii, heights and volumes belongs
to one cell, and these cells are those of the exact computation, in the same order, up to `gridTol`. -/
theorem C79_returned (A : Arith) (u pi : ℝ) (pts : List (ℝ × ℝ)) (oX oZ L M : ℝ)
    (h : Resolved A u pts oX oZ L M)
    (hfar : ∀ q, Lattice oX oZ L q → ¬ NearLine pts (2 * gridTol u M L) q) :
    let s := sampleSpace2dR A pi pts oX oZ L
    let e := sampleSpace2d Real.pi (pts.map Prod.fst) (pts.map Prod.snd) (containsPoint pts) oX oZ L
    s.dVolume.length = s.x.length ∧
    List.Forall₂ (fun x x' => |x - x'| ≤ gridTol u M L) s.x e.x ∧
    List.Forall₂ (fun z z' => |z - z'| ≤ gridTol u M L) s.z e.z := by
  have hc := C79_same_cells A u pts oX oZ L M h hfar
  simp only [sampleSpace2dR, sampleSpace2d, List.forall₂_map_left_iff, List.forall₂_map_right_iff,
    List.length_map, true_and]
  exact ⟨hc.imp fun _ _ h => h.1, hc.imp fun _ _ h => h.2⟩

/-- **C79**, the same without the proviso: every returned pair of a radius and a height is a lattice
point, up to `gridTol`, inside the LCFS or next to it. -/
theorem C79_returned_sampled (A : Arith) (u pi : ℝ) (pts : List (ℝ × ℝ)) (oX oZ L M : ℝ)
    (h : Resolved A u pts oX oZ L M) (i : ℕ) (x z : ℝ)
    (hx : (sampleSpace2dR A pi pts oX oZ L).x[i]? = some x)
    (hz : (sampleSpace2dR A pi pts oX oZ L).z[i]? = some z) :
    ∃ q, Lattice oX oZ L q ∧ CloseTo (gridTol u M L) (x, z) q ∧
      (containsPoint pts q = true ∨ NearLine pts (2 * gridTol u M L) q) := by
  simp only [sampleSpace2dR, List.getElem?_map, Option.map_eq_some_iff] at hx hz
  obtain ⟨p, hp, rfl⟩ := hx
  obtain ⟨p', hp', rfl⟩ := hz
  rw [hp] at hp'
  obtain rfl := Option.some.inj hp'
  exact C79_sampled A u pts oX oZ L M h p (List.mem_of_getElem? hp)

/-- **C79**, volumes: every computed cell volume is `2πxL²` of the computed radius with a relative error
of at most six unit roundoffs. -/
theorem C79_volume (A : Arith) (u : ℝ) (h0 : 0 ≤ u) (h1 : u ≤ 1 / 1000)
    (hA : ∀ x, |A.rd x - x| ≤ u * |x|) (pi : ℝ) (hpi : |pi - Real.pi| ≤ u * Real.pi)
    (pts : List (ℝ × ℝ)) (oX oZ L : ℝ) :
    List.Forall₂ (fun v x => |v - 2 * Real.pi * x * L ^ 2| ≤ 6 * u * |2 * Real.pi * x * L ^ 2|)
      (sampleSpace2dR A pi pts oX oZ L).dVolume (sampleSpace2dR A pi pts oX oZ L).x := by
  have one : ∀ x : ℝ, ∃ e, |e| ≤ u ∧ A.rd x = x * (1 + e) := by
    intro x
    by_cases hx : x = 0
    · subst hx
      have := hA 0
      rw [abs_zero, mul_zero, sub_zero] at this
      exact ⟨0, by simpa using h0, by simpa using this⟩
    · refine ⟨(A.rd x - x) / x, ?_, by field_simp; ring⟩
      rw [abs_div, div_le_iff₀ (abs_pos.2 hx)]
      exact hA x
  simp only [sampleSpace2dR]
  generalize samplePointsR A pts oX oZ L = l
  rw [List.forall₂_map_left_iff, List.forall₂_map_right_iff, List.forall₂_same]
  intro p _
  unfold cellVolumeR
  obtain ⟨e0, b0, c0⟩ : ∃ e, |e| ≤ u ∧ pi = Real.pi * (1 + e) := by
    refine ⟨(pi - Real.pi) / Real.pi, ?_, by field_simp; ring⟩
    rw [abs_div, abs_of_pos Real.pi_pos, div_le_iff₀ Real.pi_pos]
    exact hpi
  obtain ⟨e1, b1, c1⟩ := one (2 * pi)
  obtain ⟨e2, b2, c2⟩ := one (A.rd (2 * pi) * p.1)
  obtain ⟨e3, b3, c3⟩ := one (L ^ 2)
  obtain ⟨e4, b4, c4⟩ := one (A.rd (A.rd (2 * pi) * p.1) * A.rd (L ^ 2))
  rw [c4, c2, c3, c1, c0]
  have e : Real.pi * (1 + e0) = Real.pi * (1 + e0) := rfl
  have step : ∀ (a e q : ℝ), 0 ≤ q → q ≤ 6 * u → |a - 1| ≤ q → |e| ≤ u → |a * (1 + e) - 1| ≤ q + u * (1 + 6 * u) := by
    intro a e q hq hq6 ha he
    have e' : a * (1 + e) - 1 = (a - 1) + (a - 1) * e + e := by ring
    rw [e']
    have t1 := abs_add_le ((a - 1) + (a - 1) * e) e
    have t2 := abs_add_le (a - 1) ((a - 1) * e)
    rw [abs_mul] at t2
    have t3 : |a - 1| * |e| ≤ 6 * u * u := mul_le_mul (ha.trans hq6) he (abs_nonneg _) (by linarith)
    nlinarith
  set w := u * (1 + 6 * u) with hw
  have hw0 : 0 ≤ w := by positivity
  have hw5 : 5 * w ≤ 6 * u := by rw [hw]; nlinarith
  have s0 : |(1 + e0) - 1| ≤ w := by
    rw [add_sub_cancel_left]; nlinarith
  have s1 := step _ e1 w hw0 (by linarith) s0 b1
  have s2 := step _ e2 (w + w) (by linarith) (by linarith) s1 b2
  have s3 := step _ e3 (w + w + w) (by linarith) (by linarith) s2 b3
  have s4 := step _ e4 (w + w + w + w) (by linarith) (by linarith) s3 b4
  have e' : 2 * (Real.pi * (1 + e0)) * (1 + e1) * p.1 * (1 + e2) * (L ^ 2 * (1 + e3)) * (1 + e4) -
      2 * Real.pi * p.1 * L ^ 2 =
      (((((1 + e0) * (1 + e1)) * (1 + e2)) * (1 + e3)) * (1 + e4) - 1) * (2 * Real.pi * p.1 * L ^ 2) := by ring
  rw [e', abs_mul]
  exact mul_le_mul_of_nonneg_right (by linarith) (abs_nonneg _)

/-! ### The hypotheses are met, in binary64 arithmetic -/

namespace Ex

theorem triangle_resolved : Resolved binary64 ((2 : ℝ) ^ (-53 : ℤ)) triangle 6 (-1) (1 / 10) 8 := by
  refine ⟨C74_binary64.u_nonneg, by norm_num, C74_binary64.rel, triangle_closed, by simp [triangle], ?_, ?_,
    by norm_num, by norm_num [gridTol]⟩
  · simp [triangle]; norm_num
  · norm_num [containsPoint, pathEdges, triangle, crosses]

/-- With 10 cm cells one cell of the triangular plasma is centred within a picometre of the magnetic
axis. -/
example : ∃ p ∈ samplePointsR binary64 triangle 6 (-1) (1 / 10), CloseTo (1 / 10 ^ 12) p (6, -1) := by
  have htol : gridTol ((2 : ℝ) ^ (-53 : ℤ)) 8 (1 / 10) ≤ 1 / 10 ^ 12 := by norm_num [gridTol]
  obtain ⟨p, hp, h1, h2⟩ := C79_o_point _ _ _ _ _ _ _ triangle_resolved (by
    rintro ⟨r, ⟨i, hi, t, t0, t1, r1, r2⟩, c1, c2⟩
    have c1 := abs_le.1 (c1.trans (by linarith : _ ≤ (1 / 100 : ℝ)))
    have c2 := abs_le.1 (c2.trans (by linarith : _ ≤ (1 / 100 : ℝ)))
    simp only [triangle, List.length_cons, List.length_nil] at hi
    have : i = 0 ∨ i = 1 ∨ i = 2 := by omega
    rcases this with rfl | rfl | rfl <;> simp [triangle] at r1 r2 <;>
      linarith [c1.1, c1.2, c2.1, c2.2])
  exact ⟨p, hp, h1.trans htol, h2.trans htol⟩

/-- A plasma with rectangular cross section, `1 ≤ x ≤ 3`, `-1 ≤ z ≤ 1`. -/
def rectangle : List (ℝ × ℝ) := [(1, -1), (3, -1), (3, 1), (1, 1), (1, -1)]

/-- With 30 cm cells about the centre, the cells computed in binary64 are the exact ones, to a
picometre. -/
example : List.Forall₂ (CloseTo (1 / 10 ^ 12)) (samplePointsR binary64 rectangle 2 0 (3 / 10))
    (samplePoints (rectangle.map Prod.fst) (rectangle.map Prod.snd) (containsPoint rectangle) 2 0 (3 / 10)) := by
  have htol : gridTol ((2 : ℝ) ^ (-53 : ℤ)) 3 (3 / 10) ≤ 1 / 10 ^ 12 := by norm_num [gridTol]
  have hres : Resolved binary64 ((2 : ℝ) ^ (-53 : ℤ)) rectangle 2 0 (3 / 10) 3 := by
    refine ⟨C74_binary64.u_nonneg, by norm_num, C74_binary64.rel, ⟨by simp [rectangle], by simp [rectangle]⟩,
      by simp [rectangle], ?_, ?_, by norm_num, by norm_num [gridTol]⟩
    · simp [rectangle]
    · norm_num [containsPoint, pathEdges, rectangle, crosses]
  refine (C79_same_cells _ _ _ _ _ _ _ hres ?_).imp fun p q h => ⟨h.1.trans htol, h.2.trans htol⟩
  rintro q ⟨a, b, ha, hb⟩ ⟨r, ⟨i, hi, t, t0, t1, r1, r2⟩, c1, c2⟩
  have c1 := abs_le.1 (c1.trans (by linarith : _ ≤ (1 / 100 : ℝ)))
  have c2 := abs_le.1 (c2.trans (by linarith : _ ≤ (1 / 100 : ℝ)))
  -- a lattice coordinate is never within 1 cm of a wall
  have far : ∀ (k : ℤ) (w : ℤ), 10 * w - 3 * k ≠ 0 → ¬ (-(1 / 100 : ℝ) ≤ w - 3 / 10 * k ∧ (w : ℝ) - 3 / 10 * k ≤ 1 / 100) := by
    intro k w hk ⟨h1, h2⟩
    have h3 : |((10 * w - 3 * k : ℤ) : ℝ)| < 1 := by
      rw [abs_lt]; push_cast; constructor <;> linarith
    have h4 : |10 * w - 3 * k| < 1 := by exact_mod_cast h3
    exact hk (Int.abs_lt_one_iff.1 h4)
  simp only [rectangle, List.length_cons, List.length_nil] at hi
  have : i = 0 ∨ i = 1 ∨ i = 2 ∨ i = 3 := by omega
  rcases this with rfl | rfl | rfl | rfl <;> simp [rectangle] at r1 r2
  · refine far b (-1) (by omega) ?_
    push_cast
    constructor <;> linarith [c2.1, c2.2]
  · refine far a 1 (by omega) ?_
    push_cast
    constructor <;> linarith [c1.1, c1.2]
  · refine far b 1 (by omega) ?_
    push_cast
    constructor <;> linarith [c2.1, c2.2]
  · refine far a (-1) (by omega) ?_
    push_cast
    constructor <;> linarith [c1.1, c1.2]

end Ex
end TNS
