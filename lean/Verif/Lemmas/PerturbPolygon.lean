import Verif.Lemmas.Separation
import Verif.Spec.RoundedSpace
/-
If the vertices of a polygon move by at most `ε` along both axes, the polygon test only changes for points that the
polygon passes within `ε`.
-/

set_option autoImplicit false

namespace TNS
open Spec

theorem pathEdges_image {α β : Type} (f : α → β) (l : List α) :
    pathEdges (l.map f) = (pathEdges l).map fun e => (f e.1, f e.2) := by
  cases l with
  | nil => rfl
  | cons a l =>
    simp only [pathEdges, List.map_cons]
    rw [show (List.map f l ++ [f a]) = (l ++ [a]).map f by simp, ← List.map_cons, List.zip_map]
    rfl

theorem xorSum_map {α β : Type} (f : α → β) (l : List α) (g : β → Bool) :
    xorSum (l.map f) g = xorSum l (fun a => g (f a)) := by
  induction l with
  | nil => rfl
  | cons a l ih => rw [List.map_cons, xorSum_cons, xorSum_cons, ih]

/-- A point that lies, at its height, between two points each within `ε` of a segment is within `ε` of the segment. -/
theorem between_near (p a b r1 r2 : ℝ × ℝ) (ε t1 t2 : ℝ) (h1 : r1.2 = p.2) (h2 : r2.2 = p.2) (l : r1.1 ≤ p.1)
    (r : p.1 ≤ r2.1) (a1 : 0 ≤ t1) (b1 : t1 ≤ 1) (a2 : 0 ≤ t2) (b2 : t2 ≤ 1)
    (n1 : CloseTo ε (edgePoint a b t1) r1) (n2 : CloseTo ε (edgePoint a b t2) r2) :
    ∃ t, 0 ≤ t ∧ t ≤ 1 ∧ CloseTo ε (edgePoint a b t) p := by
  obtain ⟨s, s0, s1, hs⟩ : ∃ s, 0 ≤ s ∧ s ≤ 1 ∧ p.1 = r1.1 + s * (r2.1 - r1.1) := by
    rcases eq_or_lt_of_le (l.trans r) with e | hlt
    · exact ⟨0, le_rfl, zero_le_one, by linarith⟩
    · refine ⟨(p.1 - r1.1) / (r2.1 - r1.1), div_nonneg (by linarith) (by linarith), ?_, ?_⟩
      · rw [div_le_one (by linarith)]; linarith
      · rw [div_mul_cancel₀ _ (by linarith)]; ring
  have comb : ∀ {x y : ℝ}, |x| ≤ ε → |y| ≤ ε → |(1 - s) * x + s * y| ≤ ε := by
    intro x y hx hy
    rw [abs_le] at hx hy ⊢
    constructor <;> nlinarith [hx.1, hx.2, hy.1, hy.2]
  refine ⟨(1 - s) * t1 + s * t2, by nlinarith, by nlinarith, ?_, ?_⟩
  · have := comb n1.1 n2.1
    rwa [show (1 - s) * ((edgePoint a b t1).1 - r1.1) + s * ((edgePoint a b t2).1 - r2.1) =
      (edgePoint a b ((1 - s) * t1 + s * t2)).1 - p.1 by rw [hs]; unfold edgePoint; ring] at this
  · have := comb n1.2 n2.2
    rwa [show (1 - s) * ((edgePoint a b t1).2 - r1.2) + s * ((edgePoint a b t2).2 - r2.2) =
      (edgePoint a b ((1 - s) * t1 + s * t2)).2 - p.2 by rw [h1, h2]; unfold edgePoint; ring] at this

/-- A point of an edge of the quadrilateral swept by a moving edge is close to the edge. -/
theorem swept_edge (a b a' b' u v : ℝ × ℝ) (ε : ℝ) (ha : CloseTo ε a' a) (hb : CloseTo ε b' b)
    (h : (u = a ∧ v = b) ∨ (u = a' ∧ v = b') ∨ (u = a ∧ v = a') ∨ (u = b ∧ v = b')) (t : ℝ) (t0 : 0 ≤ t) (t1 : t ≤ 1) :
    ∃ s, 0 ≤ s ∧ s ≤ 1 ∧ CloseTo ε (edgePoint a b s) (edgePoint u v t) := by
  have ε0 : 0 ≤ ε := (abs_nonneg _).trans ha.1
  have a1 := abs_le.1 ha.1
  have a2 := abs_le.1 ha.2
  have b1 := abs_le.1 hb.1
  have b2 := abs_le.1 hb.2
  rcases h with ⟨rfl, rfl⟩ | ⟨rfl, rfl⟩ | ⟨rfl, rfl⟩ | ⟨rfl, rfl⟩
  · exact ⟨t, t0, t1, by simpa using ε0, by simpa using ε0⟩
  · refine ⟨t, t0, t1, ?_, ?_⟩ <;> rw [abs_le] <;> unfold edgePoint <;> constructor <;> simp only <;> nlinarith
  · refine ⟨0, le_rfl, zero_le_one, ?_, ?_⟩ <;> rw [abs_le] <;> unfold edgePoint <;> constructor <;> simp only <;> nlinarith
  · refine ⟨1, zero_le_one, le_rfl, ?_, ?_⟩ <;> rw [abs_le] <;> unfold edgePoint <;> constructor <;> simp only <;> nlinarith

theorem four_parity : ∀ A B A' B' c1 c2 c3 c4 : Bool, ((A = B → c1 = false) ∧ (A' = B' → c2 = false) ∧
    (A = A' → c3 = false) ∧ (B = B' → c4 = false)) → (c1 ^^ c2 ^^ c3 ^^ c4) = true →
    ((A ≠ B ∧ c1 = true) ∨ (A' ≠ B' ∧ c2 = true) ∨ (A ≠ A' ∧ c3 = true) ∨ (B ≠ B' ∧ c4 = true)) ∧
    ((A ≠ B ∧ c1 = false) ∨ (A' ≠ B' ∧ c2 = false) ∨ (A ≠ A' ∧ c3 = false) ∨ (B ≠ B' ∧ c4 = false)) := by
  intro A B A' B' c1 c2 c3 c4
  cases A <;> cases B <;> cases A' <;> cases B' <;> cases c1 <;> cases c2 <;> cases c3 <;> cases c4 <;> simp

/-- Odd parity of the quadrilateral swept by a moving edge means that the edge is close. -/
theorem swept_near (p a b a' b' : ℝ × ℝ) (ε : ℝ) (ha : CloseTo ε a' a) (hb : CloseTo ε b' b)
    (h : (crosses p a b ^^ crosses p a' b' ^^ crosses p a a' ^^ crosses p b b') = true) :
    ∃ t, 0 ≤ t ∧ t ≤ 1 ∧ CloseTo ε (edgePoint a b t) p := by
  have dd : ∀ u v : ℝ × ℝ, decide (p.2 ≤ u.2) = decide (p.2 ≤ v.2) → crosses p u v = false := fun u v e =>
    crosses_false p u v (by simpa using e)
  have dn : ∀ u v : ℝ × ℝ, decide (p.2 ≤ u.2) ≠ decide (p.2 ≤ v.2) → ¬ (p.2 ≤ u.2 ↔ p.2 ≤ v.2) := fun u v e h' =>
    e (by simpa using h')
  obtain ⟨hr, hl⟩ := four_parity (decide (p.2 ≤ a.2)) (decide (p.2 ≤ b.2)) (decide (p.2 ≤ a'.2)) (decide (p.2 ≤ b'.2))
    _ _ _ _ ⟨dd a b, dd a' b', dd a a', dd b b'⟩ h
  have right : ∃ u v, ((u = a ∧ v = b) ∨ (u = a' ∧ v = b') ∨ (u = a ∧ v = a') ∨ (u = b ∧ v = b')) ∧
      ¬ (p.2 ≤ u.2 ↔ p.2 ≤ v.2) ∧ crosses p u v = true := by
    rcases hr with h | h | h | h
    · exact ⟨a, b, by simp, dn _ _ h.1, h.2⟩
    · exact ⟨a', b', by simp, dn _ _ h.1, h.2⟩
    · exact ⟨a, a', by simp, dn _ _ h.1, h.2⟩
    · exact ⟨b, b', by simp, dn _ _ h.1, h.2⟩
  have left : ∃ u v, ((u = a ∧ v = b) ∨ (u = a' ∧ v = b') ∨ (u = a ∧ v = a') ∨ (u = b ∧ v = b')) ∧
      ¬ (p.2 ≤ u.2 ↔ p.2 ≤ v.2) ∧ crosses p u v = false := by
    rcases hl with h | h | h | h
    · exact ⟨a, b, by simp, dn _ _ h.1, h.2⟩
    · exact ⟨a', b', by simp, dn _ _ h.1, h.2⟩
    · exact ⟨a, a', by simp, dn _ _ h.1, h.2⟩
    · exact ⟨b, b', by simp, dn _ _ h.1, h.2⟩
  obtain ⟨u, v, huv, hn, hc⟩ := right
  obtain ⟨u', v', huv', hn', hc'⟩ := left
  obtain ⟨t, t0, t1, te, -, tr, -⟩ := crosses_param p u v hn
  obtain ⟨t', t0', t1', te', -, -, tl⟩ := crosses_param p u' v' hn'
  obtain ⟨s, s0, s1, hs⟩ := swept_edge a b a' b' u v ε ha hb huv t t0 t1
  obtain ⟨s', s0', s1', hs'⟩ := swept_edge a b a' b' u' v' ε ha hb huv' t' t0' t1'
  exact between_near p a b _ _ ε s' s te' te (tl hc') (tr hc) s0' s1' s0 s1 hs' hs

/-- If the vertices of a polygon move by at most `ε` along both axes and the test of a point changes, the polygon has an
edge within `ε` of the point. -/
theorem moved_polygon (pts pts' : List (ℝ × ℝ)) (ε : ℝ) (hc : List.Forall₂ (CloseTo ε) pts' pts) (p : ℝ × ℝ)
    (h : containsPoint pts' p ≠ containsPoint pts p) :
    ∃ e ∈ pathEdges pts, ∃ t, 0 ≤ t ∧ t ≤ 1 ∧ CloseTo ε (edgePoint e.1 e.2 t) p := by
  have hl := hc.length_eq
  set zs := List.zip pts pts' with hzs
  have e1 : pts = zs.map Prod.fst := by rw [hzs, List.map_fst_zip (by omega)]
  have e2 : pts' = zs.map Prod.snd := by rw [hzs, List.map_snd_zip (by omega)]
  have hz : ∀ z ∈ zs, CloseTo ε z.2 z.1 := by
    intro z hz
    have := List.forall₂_iff_zip.1 hc
    refine this.2 ?_
    rw [hzs] at hz
    obtain ⟨i, hi, rfl⟩ := List.getElem_of_mem hz
    rw [List.mem_iff_getElem]
    rw [List.length_zip] at hi
    exact ⟨i, by rw [List.length_zip]; omega, by simp⟩
  have hx : xorSum (pathEdges zs) (fun e => crosses p e.1.1 e.2.1 ^^ crosses p e.1.2 e.2.2 ^^
      (crosses p e.1.1 e.1.2 ^^ crosses p e.2.1 e.2.2)) = true := by
    rw [← xorSum_xor, ← xorSum_xor, xorSum_cycle zs (fun z => crosses p z.1 z.2)]
    unfold containsPoint at h
    change (decide _ && xorSum _ _) ≠ (decide _ && xorSum _ _) at h
    rw [e1, e2, pathEdges_image, pathEdges_image, xorSum_map, xorSum_map, List.length_map, List.length_map] at h
    revert h
    cases xorSum (pathEdges zs) (fun e => crosses p e.1.1 e.2.1) <;>
      cases xorSum (pathEdges zs) (fun e => crosses p e.1.2 e.2.2) <;> simp
  obtain ⟨e, he, hf⟩ := xorSum_true _ _ hx
  have hm : e.1 ∈ zs ∧ e.2 ∈ zs := by
    generalize zs = w at he
    cases w with
    | nil => simp [pathEdges] at he
    | cons a l =>
      obtain ⟨m1, m2⟩ := List.of_mem_zip (show (e.1, e.2) ∈ List.zip (a :: l) (l ++ [a]) from he)
      refine ⟨m1, ?_⟩
      simp only [List.mem_append, List.mem_singleton] at m2
      rcases m2 with m2 | m2
      · exact List.mem_cons_of_mem _ m2
      · rw [m2]; exact List.mem_cons_self
  refine ⟨(e.1.1, e.2.1), ?_, swept_near p e.1.1 e.2.1 e.1.2 e.2.2 ε (hz _ hm.1) (hz _ hm.2) ?_⟩
  · rw [e1, pathEdges_image]
    exact List.mem_map.2 ⟨e, he, rfl⟩
  · rw [← hf]
    cases crosses p e.1.1 e.2.1 <;> cases crosses p e.1.2 e.2.2 <;> cases crosses p e.1.1 e.1.2 <;>
      cases crosses p e.2.1 e.2.2 <;> rfl

end TNS
