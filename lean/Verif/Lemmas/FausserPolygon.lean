import Verif.Props.Fausser
import Verif.Spec.Convex
/-
The vertices of a Fausser flux surface form a convex polygon.
-/

set_option autoImplicit false

namespace TNS
open Spec
noncomputable section

theorem concave3 {f : ℝ → ℝ} {S : Set ℝ} (hf : ConcaveOn ℝ S f) {x y z : ℝ} (hx : x ∈ S) (hz : z ∈ S)
    (hxy : x ≤ y) (hyz : y ≤ z) : f x * (z - y) + f z * (y - x) ≤ f y * (z - x) := by
  rcases eq_or_lt_of_le (hxy.trans hyz) with h | h
  · have e1 : y = x := le_antisymm (by rw [h]; exact hyz) hxy
    rw [e1, ← h]; simp
  · have hd : 0 < z - x := by linarith
    have := hf.2 hx hz (div_nonneg (by linarith : 0 ≤ z - y) hd.le)
      (div_nonneg (by linarith : 0 ≤ y - x) hd.le) (by field_simp; ring)
    simp only [smul_eq_mul] at this
    have e : (z - y) / (z - x) * x + (y - x) / (z - x) * z = y := by field_simp; ring
    rw [e] at this
    have h2 := mul_le_mul_of_nonneg_right this hd.le
    have e2 : ((z - y) / (z - x) * f x + (y - x) / (z - x) * f z) * (z - x) =
        f x * (z - y) + f z * (y - x) := by field_simp
    rw [e2] at h2
    exact h2

theorem convex3 {f : ℝ → ℝ} {S : Set ℝ} (hf : ConvexOn ℝ S f) {x y z : ℝ} (hx : x ∈ S) (hz : z ∈ S)
    (hxy : x ≤ y) (hyz : y ≤ z) : f y * (z - x) ≤ f x * (z - y) + f z * (y - x) := by
  have := concave3 hf.neg hx hz hxy hyz
  simp only [Pi.neg_apply] at this
  linarith

/-- Two points on the outboard side, one on the inboard side. -/
theorem orient_out_out_in (d z1 z2 z3 : ℝ) (hd : -1 ≤ d ∧ d ≤ 1) (h1 : z1 ∈ Set.Icc (-1 : ℝ) 1)
    (h2 : z2 ∈ Set.Icc (-1 : ℝ) 1) (h3 : z3 ∈ Set.Icc (-1 : ℝ) 1) (h12 : z1 ≤ z2) :
    0 ≤ orient (outboard d z1, z1) (outboard d z2, z2) (inboard d z3, z3) := by
  have hc := outboard_concave d hd
  have hv := inboard_convex d hd
  have l1 := inboard_le d z1 hd h1
  have l2 := inboard_le d z2 hd h2
  have l3 := inboard_le d z3 hd h3
  unfold orient
  simp only
  rcases le_total z3 z1 with h | h
  · have := concave3 hc h3 h2 h h12
    nlinarith [mul_le_mul_of_nonneg_right l3 (sub_nonneg.2 h12)]
  · rcases le_total z3 z2 with h' | h'
    · have := convex3 hv h1 h2 h h'
      nlinarith [mul_le_mul_of_nonneg_right l1 (sub_nonneg.2 h'),
        mul_le_mul_of_nonneg_right l2 (sub_nonneg.2 h)]
    · have := concave3 hc h1 h3 h12 h'
      nlinarith [mul_le_mul_of_nonneg_right l3 (sub_nonneg.2 h12)]

/-- One point on the outboard side, two on the inboard side. -/
theorem orient_out_in_in (d z1 z2 z3 : ℝ) (hd : -1 ≤ d ∧ d ≤ 1) (h1 : z1 ∈ Set.Icc (-1 : ℝ) 1)
    (h2 : z2 ∈ Set.Icc (-1 : ℝ) 1) (h3 : z3 ∈ Set.Icc (-1 : ℝ) 1) (h23 : z3 ≤ z2) :
    0 ≤ orient (outboard d z1, z1) (inboard d z2, z2) (inboard d z3, z3) := by
  have := orient_out_out_in (-d) z3 z2 z1 ⟨by linarith [hd.2], by linarith [hd.1]⟩ h3 h2 h1 h23
  unfold orient inboard at *
  simp only [neg_neg] at *
  linarith

theorem sin_mono (a b : ℝ) (h1 : -(Real.pi / 2) ≤ a) (h2 : a ≤ b) (h3 : b ≤ Real.pi / 2) :
    Real.sin a ≤ Real.sin b := Real.monotoneOn_sin ⟨h1, h2.trans h3⟩ ⟨h1.trans h2, h3⟩ h2

theorem sin_anti (a b : ℝ) (h1 : Real.pi / 2 ≤ a) (h2 : a ≤ b) (h3 : b ≤ 3 * Real.pi / 2) :
    Real.sin b ≤ Real.sin a := by
  rw [← Real.sin_pi_sub a, ← Real.sin_pi_sub b]
  exact sin_mono _ _ (by linarith) (by linarith) (by linarith)

theorem shape_eq_out (d al : ℝ) (h : al ∈ Set.Icc (-(Real.pi / 2)) (Real.pi / 2)) :
    shapePoint d al = (outboard d (Real.sin al), Real.sin al) :=
  Prod.ext (shapePoint_out d al h) rfl

theorem shape_eq_in (d al : ℝ) (h : al ∈ Set.Icc (Real.pi / 2) (3 * Real.pi / 2)) :
    shapePoint d al = (inboard d (Real.sin al), Real.sin al) :=
  Prod.ext (shapePoint_in d al h) rfl

theorem shape_orient_core (d a b c : ℝ) (hd : -1 ≤ d ∧ d ≤ 1) (h0 : -(Real.pi / 2) ≤ a) (hab : a ≤ b)
    (hbc : b ≤ c) (h1 : c ≤ 3 * Real.pi / 2) :
    0 ≤ orient (shapePoint d a) (shapePoint d b) (shapePoint d c) := by
  rcases le_total c (Real.pi / 2) with hc | hc
  · rw [shape_eq_out d a ⟨h0, by linarith⟩, shape_eq_out d b ⟨by linarith, by linarith⟩,
      shape_eq_out d c ⟨by linarith, hc⟩]
    have := concave3 (outboard_concave d hd) (sin_mem a) (sin_mem c)
      (sin_mono a b h0 hab (by linarith)) (sin_mono b c (by linarith) hbc hc)
    unfold orient
    simp only
    linarith
  · rcases le_total b (Real.pi / 2) with hb | hb
    · rw [shape_eq_out d a ⟨h0, by linarith⟩, shape_eq_out d b ⟨by linarith, by linarith⟩,
        shape_eq_in d c ⟨hc, h1⟩]
      exact orient_out_out_in d _ _ _ hd (sin_mem a) (sin_mem b) (sin_mem c) (sin_mono a b h0 hab hb)
    · rcases le_total a (Real.pi / 2) with ha | ha
      · rw [shape_eq_out d a ⟨h0, ha⟩, shape_eq_in d b ⟨hb, by linarith⟩,
          shape_eq_in d c ⟨hc, h1⟩]
        exact orient_out_in_in d _ _ _ hd (sin_mem a) (sin_mem b) (sin_mem c) (sin_anti b c hb hbc h1)
      · rw [shape_eq_in d a ⟨ha, by linarith⟩, shape_eq_in d b ⟨hb, by linarith⟩,
          shape_eq_in d c ⟨hc, h1⟩]
        have := convex3 (inboard_convex d hd) (sin_mem c) (sin_mem a)
          (sin_anti b c hb hbc h1) (sin_anti a b ha hab (by linarith))
        unfold orient
        simp only
        linarith

theorem shape_back (d al : ℝ) : shapePoint d al = shapePoint d (al - 2 * Real.pi) := by
  have := shapePoint_period d (al - 2 * Real.pi) 1
  rw [← this]; congr 1; push_cast; ring

theorem orient_cycle (a b c : ℝ × ℝ) : orient a b c = orient c a b := by unfold orient; ring

theorem shape_orient (d a b c : ℝ) (hd : -1 ≤ d ∧ d ≤ 1) (h0 : 0 ≤ a) (hab : a ≤ b)
    (hbc : b ≤ c) (h1 : c ≤ 2 * Real.pi) :
    0 ≤ orient (shapePoint d a) (shapePoint d b) (shapePoint d c) := by
  have hp := Real.pi_pos
  rcases le_total c (3 * Real.pi / 2) with hc | hc
  · exact shape_orient_core d a b c hd (by linarith) hab hbc hc
  · rw [shape_back d c]
    rcases le_total b (3 * Real.pi / 2) with hb | hb
    · rw [orient_cycle]
      exact shape_orient_core d _ a b hd (by linarith) (by linarith) hab hb
    · rw [shape_back d b]
      rcases le_total a (3 * Real.pi / 2) with ha | ha
      · rw [orient_cycle, orient_cycle]
        exact shape_orient_core d _ _ a hd (by linarith) (by linarith) (by linarith) ha
      · rw [shape_back d a]
        exact shape_orient_core d _ _ _ hd (by linarith) (by linarith) (by linarith) (by linarith)

theorem orient_embed (l : LCFSInfo ℝ) (psi : ℝ) (a b c : ℝ × ℝ) :
    orient (embedAff l psi a) (embedAff l psi b) (embedAff l psi c) =
      (psi * l.r0 / l.aspect) ^ 2 * l.kappa * orient a b c := by
  simp only [embedAff_apply, orient]
  ring

theorem angles_get (n i : ℕ) (a : ℝ) (h : (angles n)[i]? = some a) :
    0 ≤ a ∧ a ≤ 2 * Real.pi ∧ ∀ (j : ℕ) (b : ℝ), i ≤ j → (angles n)[j]? = some b → a ≤ b := by
  unfold angles at *
  split_ifs at * with hn
  · rcases i with _ | i
    · simp at h
      subst h
      refine ⟨le_rfl, Real.two_pi_pos.le, fun j b _ hb => ?_⟩
      rcases j with _ | j <;> simp at hb
      exact hb.le
    · simp at h
  · simp only [List.getElem?_map, Option.map_eq_some_iff] at h ⊢
    obtain ⟨k, hk, rfl⟩ := h
    have hi : i < n := by
      by_contra hge
      rw [List.getElem?_eq_none (by simp; omega)] at hk
      simp at hk
    rw [List.getElem?_range hi] at hk
    obtain rfl := Option.some.inj hk
    have hn1 : (0 : ℝ) < (n : ℝ) - 1 := by
      have : (2 : ℝ) ≤ n := by exact_mod_cast (by omega : 2 ≤ n)
      linarith
    have hin : (i : ℝ) ≤ (n : ℝ) - 1 := by
      have : (i : ℝ) + 1 ≤ n := by exact_mod_cast hi
      linarith
    refine ⟨by positivity, ?_, fun j b hij hb => ?_⟩
    · have : (i : ℝ) / ((n : ℝ) - 1) ≤ 1 := (div_le_one hn1).2 hin
      nlinarith [Real.two_pi_pos]
    · obtain ⟨k, hk, rfl⟩ := hb
      have hj : j < n := by
        by_contra hge
        rw [List.getElem?_eq_none (by simp; omega)] at hk
        simp at hk
      rw [List.getElem?_range hj] at hk
      obtain rfl := Option.some.inj hk
      have : (i : ℝ) ≤ j := by exact_mod_cast hij
      have : (i : ℝ) / ((n : ℝ) - 1) ≤ (j : ℝ) / ((n : ℝ) - 1) :=
        div_le_div_of_nonneg_right this hn1.le
      nlinarith [Real.two_pi_pos]

theorem fausser_polygon_convex (l : LCFSInfo ℝ) (hd : -1 ≤ l.delta ∧ l.delta ≤ 1) (hk : 0 ≤ l.kappa)
    (psi : ℝ) (n : ℕ) : ConvexPolygon ((angles n).map (fausserPoint l psi)) := by
  intro i j k a b c hij hjk ha hb hc
  simp only [List.getElem?_map, Option.map_eq_some_iff] at ha hb hc
  obtain ⟨al, ha, rfl⟩ := ha
  obtain ⟨be, hb, rfl⟩ := hb
  obtain ⟨ga, hc, rfl⟩ := hc
  rw [fausserPoint_eq, fausserPoint_eq, fausserPoint_eq, orient_embed]
  refine mul_nonneg (by positivity) ?_
  exact shape_orient l.delta al be ga hd (angles_get n i al ha).1
    ((angles_get n i al ha).2.2 j be hij.le hb) ((angles_get n j be hb).2.2 k ga hjk.le hc)
    (angles_get n k ga hc).2.1

end
end TNS
