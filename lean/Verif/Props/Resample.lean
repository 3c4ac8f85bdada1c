import Verif.Model.Flux
import Verif.Lemmas.Interp
import Verif.Lemmas.MapM
import Verif.Props.Flux
/-
C46, C49: resampling flux surfaces; flux surfaces of an EQDSK map.
-/

set_option autoImplicit false

namespace TNS
noncomputable section

/-! ## Specification -/

/-- Length of a polyline. -/
def polyLength : List (ℝ × ℝ) → ℝ
  | [] => 0
  | [_] => 0
  | p :: q :: l => Real.sqrt ((q.1 - p.1) ^ 2 + (q.2 - p.2) ^ 2) + polyLength (q :: l)

/-- `P` is the point of the polyline `pts` at distance `t` from its start, measured along it: it
lies on the segment from `p` to `q`, at the distance from `p` not yet used up before `p`. -/
def AtArc (pts : List (ℝ × ℝ)) (t : ℝ) (P : ℝ × ℝ) : Prop :=
  ∃ l p q r, pts = l ++ p :: q :: r ∧
    polyLength (l ++ [p]) ≤ t ∧ t ≤ polyLength (l ++ [p, q]) ∧
    P = (p.1 + (q.1 - p.1) * ((t - polyLength (l ++ [p])) /
          (polyLength (l ++ [p, q]) - polyLength (l ++ [p]))),
         p.2 + (q.2 - p.2) * ((t - polyLength (l ++ [p])) /
          (polyLength (l ++ [p, q]) - polyLength (l ++ [p]))))

/-! ## Arc lengths -/

theorem segLength_nonneg (p q : ℝ × ℝ) : 0 ≤ segLength p q := Real.sqrt_nonneg _

theorem segLength_pos (p q : ℝ × ℝ) (h : p ≠ q) : 0 < segLength p q := by
  refine Real.sqrt_pos.2 ?_
  by_contra hc
  have h1 := sq_nonneg (q.1 - p.1)
  have h2 := sq_nonneg (q.2 - p.2)
  have e1 : (q.1 - p.1) ^ 2 = 0 := by linarith
  have e2 : (q.2 - p.2) ^ 2 = 0 := by linarith
  rw [sq_eq_zero_iff, sub_eq_zero] at e1 e2
  exact h (Prod.ext e1.symm e2.symm)

theorem polyLength_cons (p q : ℝ × ℝ) (l : List (ℝ × ℝ)) :
    polyLength (p :: q :: l) = segLength p q + polyLength (q :: l) := rfl

theorem polyLength_nonneg (l : List (ℝ × ℝ)) : 0 ≤ polyLength l := by
  induction l with
  | nil => exact le_refl _
  | cons p l ih =>
    cases l with
    | nil => exact le_refl _
    | cons q l => rw [polyLength_cons]; exact add_nonneg (segLength_nonneg _ _) ih

theorem polyLength_snoc (l : List (ℝ × ℝ)) (p q : ℝ × ℝ) :
    polyLength (l ++ [p, q]) = polyLength (l ++ [p]) + segLength p q := by
  induction l with
  | nil => simp [polyLength, segLength, hypot]
  | cons a l ih =>
    cases l with
    | nil => simp [polyLength, segLength, hypot]
    | cons b l =>
      simp only [List.cons_append] at ih ⊢
      rw [polyLength_cons, polyLength_cons, ih]; ring

theorem arcLengths_length (s : ℝ) (l : List (ℝ × ℝ)) : (arcLengths s l).length = l.length := by
  induction l generalizing s with
  | nil => rfl
  | cons p l ih =>
    cases l with
    | nil => rfl
    | cons q l => rw [arcLengths, List.length_cons, ih]; rfl

theorem arcLengths_head (s : ℝ) (p : ℝ × ℝ) (l : List (ℝ × ℝ)) :
    ∃ t, arcLengths s (p :: l) = s :: t := by
  cases l <;> exact ⟨_, rfl⟩

theorem arcLengths_ge (s : ℝ) (l : List (ℝ × ℝ)) : ∀ x ∈ arcLengths s l, s ≤ x := by
  induction l generalizing s with
  | nil => simp [arcLengths]
  | cons p l ih =>
    cases l with
    | nil => simp [arcLengths]
    | cons q l =>
      intro x hx
      rw [arcLengths, List.mem_cons] at hx
      rcases hx with rfl | hx
      · exact le_refl _
      · have := ih _ x hx
        have := segLength_nonneg p q
        linarith

theorem arcLengths_sorted (s : ℝ) (l : List (ℝ × ℝ)) (h : l.IsChain (· ≠ ·)) :
    (arcLengths s l).Pairwise (· < ·) := by
  induction l generalizing s with
  | nil => simp [arcLengths]
  | cons p l ih =>
    cases l with
    | nil => simp [arcLengths]
    | cons q l =>
      rw [arcLengths]
      obtain ⟨h1, h2⟩ := List.isChain_cons_cons.1 h
      refine List.pairwise_cons.2 ⟨fun x hx => ?_, ih _ h2⟩
      have := arcLengths_ge _ _ x hx
      have := segLength_pos p q h1
      linarith

theorem arcLengths_getLast (s : ℝ) (l : List (ℝ × ℝ)) (h : l ≠ []) :
    (arcLengths s l).getLast? = some (s + polyLength l) := by
  induction l generalizing s with
  | nil => exact absurd rfl h
  | cons p l ih =>
    cases l with
    | nil => simp [arcLengths, polyLength]
    | cons q l =>
      rw [arcLengths]
      obtain ⟨t, ht⟩ := arcLengths_head (s + segLength p q) q l
      have := ih (s + segLength p q) (by simp)
      rw [ht] at this ⊢
      rw [List.getLast?_cons_cons, this, polyLength_cons, add_assoc]

theorem arcLengths_split (s : ℝ) (l : List (ℝ × ℝ)) (p q : ℝ × ℝ) (r : List (ℝ × ℝ)) :
    ∃ pre post, arcLengths s (l ++ p :: q :: r) =
      pre ++ (s + polyLength (l ++ [p])) :: (s + polyLength (l ++ [p, q])) :: post ∧
      pre.length = l.length ∧ post.length = r.length := by
  induction l generalizing s with
  | nil =>
    obtain ⟨t, ht⟩ := arcLengths_head (s + segLength p q) q r
    refine ⟨[], t, ?_, rfl, ?_⟩
    · rw [List.nil_append, arcLengths, ht]
      simp [polyLength, segLength, hypot]
    · have := arcLengths_length (s + segLength p q) (q :: r)
      rw [ht] at this
      simpa using this
  | cons a l ih =>
    obtain ⟨b, t, e⟩ : ∃ b t, l ++ p :: q :: r = b :: t := by cases l <;> exact ⟨_, _, rfl⟩
    obtain ⟨pre, post, h1, h2, h3⟩ := ih (s + segLength a b)
    have eb : ∀ u, polyLength (a :: (l ++ p :: u)) = segLength a b + polyLength (l ++ p :: u) := by
      intro u
      cases l with
      | nil => simp at e; rw [List.nil_append, polyLength_cons, e.1]
      | cons c l => simp at e; rw [List.cons_append, polyLength_cons, e.1]
    refine ⟨s :: pre, post, ?_, by simp [h2], h3⟩
    rw [List.cons_append, e, arcLengths, ← e, h1]
    simp only [List.cons_append, eb]
    simp [add_assoc]

theorem arc_exists (pts : List (ℝ × ℝ)) (h2 : 2 ≤ pts.length) (t : ℝ) (h0 : 0 ≤ t)
    (h1 : t ≤ polyLength pts) :
    ∃ l p q r, pts = l ++ p :: q :: r ∧ polyLength (l ++ [p]) ≤ t ∧
      t ≤ polyLength (l ++ [p, q]) := by
  induction pts generalizing t with
  | nil => simp at h2
  | cons a pts ih =>
    cases pts with
    | nil => simp at h2
    | cons b pts =>
      by_cases hab : t ≤ segLength a b
      · exact ⟨[], a, b, pts, rfl, by simpa [polyLength] using h0,
          by simpa [polyLength, segLength, hypot] using hab⟩
      · rw [polyLength_cons] at h1
        rw [not_le] at hab
        cases pts with
        | nil => simp [polyLength] at h1; exact absurd h1 (not_le.2 hab)
        | cons c pts =>
          obtain ⟨l, p, q, r, e, a1, a2⟩ := ih (by simp) (t - segLength a b) (by linarith)
            (by linarith)
          have eb : ∀ u, polyLength (a :: (l ++ p :: u)) =
              segLength a b + polyLength (l ++ p :: u) := by
            intro u
            cases l with
            | nil => simp at e; rw [List.nil_append, polyLength_cons, e.1]
            | cons d l => simp at e; rw [List.cons_append, polyLength_cons, e.1]
          refine ⟨a :: l, p, q, r, by rw [e]; rfl, ?_, ?_⟩
          · rw [List.cons_append, eb]; linarith
          · rw [List.cons_append, eb]; linarith

theorem zip_sorted (s : List ℝ) (v : List ℝ) (hs : s.Pairwise (· < ·)) :
    SortedTable (List.zip s v) := by
  induction s generalizing v with
  | nil => simp [SortedTable]
  | cons a s ih =>
    cases v with
    | nil => simp [SortedTable]
    | cons b v =>
      obtain ⟨h1, h2⟩ := List.pairwise_cons.1 hs
      exact List.pairwise_cons.2 ⟨fun p hp => h1 _ (List.of_mem_zip hp).1, ih v h2⟩

/-- Interpolating a coordinate in the arc length. -/
theorem interp_arc (l : List (ℝ × ℝ)) (p q : ℝ × ℝ) (r : List (ℝ × ℝ)) (f : ℝ × ℝ → ℝ)
    (hc : (l ++ p :: q :: r).IsChain (· ≠ ·)) (t : ℝ) (h1 : polyLength (l ++ [p]) ≤ t)
    (h2 : t ≤ polyLength (l ++ [p, q])) (ht : t ≤ polyLength (l ++ p :: q :: r)) :
    interp1d (List.zip (arcLengths 0 (l ++ p :: q :: r)) ((l ++ p :: q :: r).map f)) t =
      .ok (f p + (f q - f p) * ((t - polyLength (l ++ [p])) /
          (polyLength (l ++ [p, q]) - polyLength (l ++ [p])))) := by
  obtain ⟨pre, post, e, hpre, hpost⟩ := arcLengths_split 0 l p q r
  have hs := arcLengths_sorted 0 _ hc
  have hlast := arcLengths_getLast 0 (l ++ p :: q :: r) (by simp)
  have hge := arcLengths_ge 0 (l ++ p :: q :: r)
  simp only [zero_add] at e hlast
  set pts := l ++ p :: q :: r with hpts
  have hzip : List.zip (arcLengths 0 pts) (pts.map f) =
      List.zip pre (l.map f) ++ (polyLength (l ++ [p]), f p) :: (polyLength (l ++ [p, q]), f q) ::
        List.zip post (r.map f) := by
    rw [e, hpts, List.map_append, List.zip_append (by simp [hpre])]
    simp
  have hsort : SortedTable (List.zip (arcLengths 0 pts) (pts.map f)) := zip_sorted _ _ hs
  have hlen : (arcLengths 0 pts).length = (pts.map f).length := by simp [arcLengths_length]
  have hfst : (List.zip (arcLengths 0 pts) (pts.map f)).map Prod.fst = arcLengths 0 pts :=
    List.map_fst_zip (by rw [hlen])
  have hb : ((List.zip (arcLengths 0 pts) (pts.map f)).getLast?).map Prod.fst =
      some (polyLength pts) := by
    rw [← List.getLast?_map, hfst, hlast]
  obtain ⟨b, hb1, hb2⟩ := Option.map_eq_some_iff.1 hb
  obtain ⟨a, ha1⟩ : ∃ a, (List.zip (arcLengths 0 pts) (pts.map f)).head? = some a := by
    rw [hzip]; cases List.zip pre (l.map f) <;> exact ⟨_, rfl⟩
  have ha : a.1 = 0 := by
    have hh : ((List.zip (arcLengths 0 pts) (pts.map f)).head?).map Prod.fst =
        (arcLengths 0 pts).head? := by
      rw [← List.head?_map, hfst]
    rw [ha1] at hh
    obtain ⟨z, w, ez⟩ : ∃ z w, pts = z :: w := by
      rw [hpts]; cases l <;> exact ⟨_, _, rfl⟩
    rw [ez] at hh
    obtain ⟨u, hu⟩ := arcLengths_head 0 z w
    rw [hu] at hh
    simpa using hh
  unfold interp1d
  simp only [mergeSort_sorted _ hsort, ha1, hb1]
  have h0 : 0 ≤ t := (polyLength_nonneg _).trans h1
  rw [if_neg (by rw [not_or, ha, hb2]; exact ⟨not_lt.2 h0, not_lt.2 ht⟩), hzip,
    npInterp_seg _ _ _ _ (by rw [← hzip]; exact hsort) t h1 h2]

/-! ## C46 -/

/-- C46.  Resampling a polyline (at least two points, no zero-length segment) with `n` points gives
`n+1` points, starting at the original start and ending at exactly the same point; point `i` is the
point of the original polyline at arc length `i L / n`. -/
theorem C46_resample (pts : List (ℝ × ℝ)) (h2 : 2 ≤ pts.length) (hc : pts.IsChain (· ≠ ·)) (n : ℕ)
    (hn : 1 ≤ n) :
    ∃ out, interpolateFluxSurface pts n = .ok out ∧ out.length = n + 1 ∧
      out.head? = pts.head? ∧ out.getLast? = pts.head? ∧
      ∀ i : ℕ, i < n → ∃ P, out[i]? = some P ∧ AtArc pts ((i : ℝ) * polyLength pts / n) P := by
  have hn0 : (0 : ℝ) < n := by exact_mod_cast hn
  set L := polyLength pts with hL
  have hL0 : 0 ≤ L := polyLength_nonneg _
  have hne : pts ≠ [] := by rintro rfl; simp at h2
  -- the interpolated points
  have hex : ∀ i : ℕ, i < n → ∃ P : ℝ × ℝ,
      interp1d (List.zip (arcLengths 0 pts) (pts.map Prod.fst)) ((i : ℝ) * L / n) = .ok P.1 ∧
      interp1d (List.zip (arcLengths 0 pts) (pts.map Prod.snd)) ((i : ℝ) * L / n) = .ok P.2 ∧
      AtArc pts ((i : ℝ) * L / n) P := by
    intro i hi
    have hi' : (i : ℝ) ≤ n := by exact_mod_cast hi.le
    have t0 : 0 ≤ (i : ℝ) * L / n := by positivity
    have t1 : (i : ℝ) * L / n ≤ L := by
      rw [div_le_iff₀ hn0]; nlinarith
    obtain ⟨l, p, q, r, e, a1, a2⟩ := arc_exists pts h2 _ t0 t1
    have hc' := hc
    rw [e] at hc'
    have t2 : (i : ℝ) * L / n ≤ polyLength (l ++ p :: q :: r) := by rw [← e]; exact t1
    have e1 := interp_arc l p q r Prod.fst hc' _ a1 a2 t2
    have e2 := interp_arc l p q r Prod.snd hc' _ a1 a2 t2
    rw [← e] at e1 e2
    exact ⟨(_, _), e1, e2, l, p, q, r, e, a1, a2, rfl⟩
  choose! P hP1 hP2 hP3 using hex
  have hmap : ∀ (f : ℝ → Except Err ℝ) (g : ℕ → ℝ) (m : ℕ),
      (∀ i < m, f ((i : ℝ) * L / n) = .ok (g i)) →
      ((List.range m).map (fun i : ℕ => (i : ℝ) * L / n)).mapM f = .ok ((List.range m).map g) := by
    intro f g m
    induction m with
    | zero => intro _; rfl
    | succ m ih =>
      intro h
      rw [List.range_succ, List.map_append, List.map_append, List.mapM_append,
        ih (fun i hi => h i (by omega))]
      simp only [List.map_cons, List.map_nil, List.mapM_cons, List.mapM_nil, h m (by omega)]
      rfl
  have hLast : (arcLengths 0 pts).getLastD 0 = L := by
    have := arcLengths_getLast 0 pts hne
    rw [List.getLastD_eq_getLast?, this]; simp [hL]
  have hx := hmap _ (fun i => (P i).1) n hP1
  have hz := hmap _ (fun i => (P i).2) n hP2
  obtain ⟨m, rfl⟩ : ∃ m, n = m + 1 := ⟨n - 1, by omega⟩
  have hout : interpolateFluxSurface pts (m + 1) =
      .ok ((List.range (m + 1)).map P ++ [P 0]) := by
    unfold interpolateFluxSurface
    rw [if_neg hne]
    simp only [hLast, hx, hz, bind, Except.bind]
    rw [List.range_succ_eq_map]
    simp only [List.map_cons]
    congr 1
    rw [List.cons_append, List.cons_append, List.zip_cons_cons, List.zip_append (by simp)]
    simp only [List.cons_append, List.zip_cons_cons, List.zip_nil_right]
    congr 2
    rw [List.map_map, List.map_map, List.map_map, List.zip_map']
    rfl
  have hhead : some (P 0) = pts.head? := by
    obtain ⟨l, p, q, r, e, a1, a2, a3⟩ := hP3 0 (by omega)
    simp only [Nat.cast_zero, zero_mul, zero_div] at a1 a2 a3
    have hz0 : polyLength (l ++ [p]) = 0 := le_antisymm a1 (polyLength_nonneg _)
    have hl : l = [] := by
      cases l with
      | nil => rfl
      | cons a l =>
        exfalso
        obtain ⟨b, t, eb⟩ : ∃ b t, l ++ [p] = b :: t := by cases l <;> exact ⟨_, _, rfl⟩
        rw [List.cons_append, eb, polyLength_cons] at hz0
        have hab : a ≠ b := by
          rw [e] at hc
          cases l with
          | nil => simp at eb; rw [← eb.1]; exact (List.isChain_cons_cons.1 hc).1
          | cons c l => simp at eb; rw [← eb.1]; exact (List.isChain_cons_cons.1 hc).1
        have := segLength_pos a b hab
        have := polyLength_nonneg (b :: t)
        linarith
    subst hl
    rw [e, a3]
    simp [polyLength]
  refine ⟨_, hout, by simp, ?_, ?_, ?_⟩
  · rw [← hhead, List.range_succ_eq_map]; simp
  · rw [← hhead]; simp
  · intro i hi
    refine ⟨P i, ?_, hP3 i hi⟩
    rw [List.getElem?_append_left (by simpa using hi)]
    simp [hi]

/-- Resampling a unit square (counter-clockwise from the origin) with 8 points: the second point is
the middle of the first side. -/
example : ∃ out, interpolateFluxSurface [(0,0), (1,0), (1,1), (0,1), (0,0)] 8 = .ok out ∧
    out.length = 9 ∧ out.getLast? = some (0, 0) := by
  obtain ⟨out, h1, h2, -, h3, -⟩ := C46_resample [(0,0), (1,0), (1,1), (0,1), (0,0)] (by simp)
    (by simp [List.isChain_cons_cons]) 8 (by norm_num)
  exact ⟨out, h1, h2, h3⟩

/-! ## C49 -/

/-- C49.  Requests are clipped to [0,1]; at 0 or below the zero-volume ring at the O-point; otherwise
any result is a closed surface and the only failures without resampling are `FluxSurfaceError` (no
contour, or the selected contour is open); an accepted surface is one of the contours. -/
theorem C49_requests (contours : ℝ → List (List (ℝ × ℝ))) (o : FluxPoint ℝ)
    (hne : ∀ v, ∀ g ∈ contours v, g ≠ []) (psi : ℝ) :
    (psi ≤ 0 → ∀ n, eqdskFluxSurface contours o psi n = .ok (.ring o.x o.z)) ∧
    (1 ≤ psi → ∀ n, eqdskFluxSurface contours o psi n = eqdskFluxSurface contours o 1 n) ∧
    (0 < psi → (∃ g ∈ contours (min psi 1), eqdskFluxSurface contours o psi none = .ok (.closed g) ∧
        ∃ a b, g.head? = some a ∧ g.getLast? = some b ∧
          |a.1 - b.1| ≤ 1 / 10 ^ 12 ∧ |a.2 - b.2| ≤ 1 / 10 ^ 12) ∨
      eqdskFluxSurface contours o psi none = .error .fluxSurfaceError) := by
  refine ⟨fun h n => ?_, fun h n => ?_, fun h => ?_⟩
  · simp [eqdskFluxSurface, clip_le psi h]
  · simp only [eqdskFluxSurface, clip_ge psi h, clip_ge (1 : ℝ) (le_refl _)]
  · have hclip : clip 0 1 psi = min psi 1 := by simp [clip, h.le]
    have hpos : min psi 1 ≠ 0 := (lt_min h one_pos).ne'
    unfold eqdskFluxSurface
    simp only [hclip]
    rw [if_neg hpos]
    by_cases hcon : contours (min psi 1) = []
    · right
      rw [((C47_selection _ o).1).2 hcon]; rfl
    · obtain ⟨l, g, r, e, hf, -⟩ := (C47_selection _ o).2 hcon
      have hg : g ∈ contours (min psi 1) := by rw [e]; simp
      obtain ⟨a, ha⟩ : ∃ a, g.head? = some a := by
        cases g with
        | nil => exact absurd rfl (hne _ _ hg)
        | cons a g => exact ⟨a, rfl⟩
      obtain ⟨b, hb⟩ : ∃ b, g.getLast? = some b :=
        Option.isSome_iff_exists.1 (by
          rw [List.getLast?_isSome]; exact hne _ _ hg)
      rw [hf]
      simp only [bind, Except.bind, pure, Except.pure]
      rw [C50_closed g a b ha hb]
      by_cases hcl : |a.1 - b.1| ≤ 1 / 10 ^ 12 ∧ |a.2 - b.2| ≤ 1 / 10 ^ 12
      · left
        exact ⟨g, hg, by rw [if_pos hcl], a, b, ha, hb, hcl⟩
      · right
        rw [if_neg hcl]

/-- C49.  With resampling the result is always an exactly closed surface with `n+1` points — even
when the selected contour is open, in which case the chord closing it is added silently. -/
theorem C49_resampled (contours : ℝ → List (List (ℝ × ℝ))) (o : FluxPoint ℝ) (psi : ℝ)
    (h0 : 0 < psi) (n : ℕ) (hn : 1 ≤ n) (hcon : contours (min psi 1) ≠ [])
    (hpoly : ∀ g ∈ contours (min psi 1), 2 ≤ g.length ∧ g.IsChain (· ≠ ·)) :
    ∃ out g, eqdskFluxSurface contours o psi (some n) = .ok (.closed out) ∧
      g ∈ contours (min psi 1) ∧ out.length = n + 1 ∧ out.head? = out.getLast? ∧
      ∀ i : ℕ, i < n → ∃ P, out[i]? = some P ∧ AtArc g ((i : ℝ) * polyLength g / n) P := by
  have hclip : clip 0 1 psi = min psi 1 := by simp [clip, h0.le]
  have hpos : min psi 1 ≠ 0 := (lt_min h0 one_pos).ne'
  obtain ⟨l, g, r, e, hf, -⟩ := (C47_selection _ o).2 hcon
  have hg : g ∈ contours (min psi 1) := by rw [e]; simp
  obtain ⟨out, h1, h2, h3, h4, h5⟩ := C46_resample g (hpoly g hg).1 (hpoly g hg).2 n hn
  refine ⟨out, g, ?_, hg, h2, by rw [h3, h4], h5⟩
  unfold eqdskFluxSurface
  simp only [hclip]
  rw [if_neg hpos, hf]
  simp only [bind, Except.bind, pure, Except.pure, h1]
  obtain ⟨a, ha⟩ : ∃ a, out.head? = some a := by
    cases out with
    | nil => simp at h2
    | cons a g => exact ⟨a, rfl⟩
  rw [C50_closed out a a ha (by rw [h4, ← h3, ha]), if_pos (by simp)]

/-- C49.  An open contour: rejected as it is, accepted (closed by a chord) when resampled. -/
example : eqdskFluxSurface (fun _ => [[(0,0), (1,0), (1,1)]]) ⟨0, 0, 0⟩ (1/2) none =
      .error .fluxSurfaceError ∧
    ∃ out, eqdskFluxSurface (fun _ => [[(0,0), (1,0), (1,1)]]) ⟨0, 0, 0⟩ (1/2) (some 10) =
      .ok (.closed out) := by
  refine ⟨?_, ?_⟩
  · rcases (C49_requests (fun _ => [[(0,0), (1,0), (1,1)]]) ⟨0, 0, 0⟩ (by simp) (1/2)).2.2
      (by norm_num) with ⟨g, hg, -, a, b, ha, hb, h1, -⟩ | h
    · simp at hg; subst hg
      simp at ha hb; subst ha; subst hb
      norm_num at h1
    · exact h
  · obtain ⟨out, g, h, -⟩ := C49_resampled (fun _ => [[(0,0), (1,0), (1,1)]]) ⟨0, 0, 0⟩ (1/2)
      (by norm_num) 10 (by norm_num) (by simp) (by simp [List.isChain_cons_cons])
    exact ⟨out, h⟩

end
end TNS
