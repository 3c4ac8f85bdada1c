import Verif.Model.Polygon
import Mathlib.Analysis.SpecialFunctions.Integrals.Basic
import Mathlib.Tactic.Linarith
import Mathlib.Tactic.FieldSimp
/-
C45: area, centroid and volume of closed polygons.
-/

set_option autoImplicit false

namespace TNS
noncomputable section

/-! ## Specification: contour integrals along the polygon -/

/-- `∫ g(x, z) dz` along the straight segment from `p` to `q`. -/
def segIntegral (g : ℝ → ℝ → ℝ) (p q : ℝ × ℝ) : ℝ :=
  ∫ t in (0:ℝ)..1, g (p.1 + t * (q.1 - p.1)) (p.2 + t * (q.2 - p.2)) * (q.2 - p.2)

/-- `∮ g(x, z) dz` along the polygon. -/
def contour (g : ℝ → ℝ → ℝ) : List (ℝ × ℝ) → ℝ
  | [] => 0
  | [_] => 0
  | p :: q :: l => segIntegral g p q + contour g (q :: l)

/-- The polygon closes exactly. -/
def ExactlyClosed (pts : List (ℝ × ℝ)) : Prop := pts ≠ [] ∧ pts.head? = pts.getLast?

/-! ## Edge sums -/

theorem edgeSum_congr (f g : ℝ × ℝ → ℝ × ℝ → ℝ) (h : ∀ p q, f p q = g p q) (l : List (ℝ × ℝ)) :
    edgeSum f l = edgeSum g l := by
  have : f = g := funext fun p => funext fun q => h p q
  rw [this]

theorem edgeSum_add (f g : ℝ × ℝ → ℝ × ℝ → ℝ) (l : List (ℝ × ℝ)) :
    edgeSum (fun p q => f p q + g p q) l = edgeSum f l + edgeSum g l := by
  induction l with
  | nil => simp [edgeSum]
  | cons p l ih =>
    cases l with
    | nil => simp [edgeSum]
    | cons q l => rw [edgeSum, edgeSum, edgeSum, ih]; ring

theorem edgeSum_mul (c : ℝ) (f : ℝ × ℝ → ℝ × ℝ → ℝ) (l : List (ℝ × ℝ)) :
    edgeSum (fun p q => c * f p q) l = c * edgeSum f l := by
  induction l with
  | nil => simp [edgeSum]
  | cons p l ih =>
    cases l with
    | nil => simp [edgeSum]
    | cons q l => rw [edgeSum, edgeSum, ih]; ring

theorem edgeSum_nonneg (f : ℝ × ℝ → ℝ × ℝ → ℝ) (l : List (ℝ × ℝ))
    (h : ∀ p ∈ l, ∀ q ∈ l, 0 ≤ f p q) : 0 ≤ edgeSum f l := by
  induction l with
  | nil => simp [edgeSum]
  | cons p l ih =>
    cases l with
    | nil => simp [edgeSum]
    | cons q l =>
      rw [edgeSum]
      exact add_nonneg (h _ (by simp) _ (by simp))
        (ih fun p hp q hq => h p (List.mem_cons_of_mem _ hp) q (List.mem_cons_of_mem _ hq))

theorem edgeSum_telescope (g : ℝ × ℝ → ℝ) (l : List (ℝ × ℝ)) (a b : ℝ × ℝ)
    (ha : l.head? = some a) (hb : l.getLast? = some b) :
    edgeSum (fun p q => g q - g p) l = g b - g a := by
  induction l generalizing a with
  | nil => simp at ha
  | cons p l ih =>
    simp at ha; subst ha
    cases l with
    | nil => simp at hb; subst hb; simp [edgeSum]
    | cons q l =>
      rw [edgeSum, ih q rfl (by simpa using hb)]; ring

theorem edgeSum_closed (g : ℝ × ℝ → ℝ) (l : List (ℝ × ℝ)) (h : ExactlyClosed l) :
    edgeSum (fun p q => g q - g p) l = 0 := by
  obtain ⟨hne, he⟩ := h
  cases l with
  | nil => exact absurd rfl hne
  | cons p l =>
    rw [edgeSum_telescope g (p :: l) p p rfl (by rw [← he]; rfl), sub_self]

theorem edgeSum_append (f : ℝ × ℝ → ℝ × ℝ → ℝ) (l : List (ℝ × ℝ)) (p q : ℝ × ℝ) :
    edgeSum f (l ++ [p, q]) = edgeSum f (l ++ [p]) + f p q := by
  induction l with
  | nil => simp [edgeSum]
  | cons a l ih =>
    cases l with
    | nil => simp [edgeSum]
    | cons b l =>
      simp only [List.cons_append, edgeSum] at ih ⊢
      rw [ih]; ring

theorem edgeSum_reverse (f : ℝ × ℝ → ℝ × ℝ → ℝ) (l : List (ℝ × ℝ)) :
    edgeSum f l.reverse = edgeSum (fun p q => f q p) l := by
  induction l with
  | nil => rfl
  | cons p l ih =>
    cases l with
    | nil => rfl
    | cons q l =>
      rw [List.reverse_cons, List.reverse_cons, List.append_assoc]
      rw [show [q] ++ [p] = [q, p] from rfl, edgeSum_append, ← List.reverse_cons, ih, edgeSum]
      ring

theorem edgeSum_map (f : ℝ × ℝ → ℝ × ℝ → ℝ) (m : ℝ × ℝ → ℝ × ℝ) (l : List (ℝ × ℝ)) :
    edgeSum f (l.map m) = edgeSum (fun p q => f (m p) (m q)) l := by
  induction l with
  | nil => rfl
  | cons p l ih =>
    cases l with
    | nil => rfl
    | cons q l =>
      simp only [List.map_cons] at ih ⊢
      rw [edgeSum, edgeSum, ih]

theorem contour_eq (g : ℝ → ℝ → ℝ) (l : List (ℝ × ℝ)) :
    contour g l = edgeSum (segIntegral g) l := by
  induction l with
  | nil => rfl
  | cons p l ih =>
    cases l with
    | nil => rfl
    | cons q l => rw [contour, edgeSum, ih]

/-! ## The three integrals -/

theorem seg_x (p q : ℝ × ℝ) : segIntegral (fun x _ => x) p q = (p.1 + q.1) / 2 * (q.2 - p.2) := by
  unfold segIntegral
  rw [intervalIntegral.integral_mul_const, intervalIntegral.integral_add (by simp)
    (by apply Continuous.intervalIntegrable; fun_prop), intervalIntegral.integral_mul_const]
  simp
  ring_nf
  simp

theorem seg_poly2 (a b c : ℝ) :
    ∫ t in (0:ℝ)..1, (a + b * t + c * t ^ 2) = a + b / 2 + c / 3 := by
  rw [intervalIntegral.integral_add (by apply Continuous.intervalIntegrable; fun_prop)
    (by apply Continuous.intervalIntegrable; fun_prop),
    intervalIntegral.integral_add (by simp) (by apply Continuous.intervalIntegrable; fun_prop),
    intervalIntegral.integral_const_mul, intervalIntegral.integral_const_mul]
  simp [integral_pow]
  norm_num
  ring

theorem seg_xx (p q : ℝ × ℝ) : segIntegral (fun x _ => x ^ 2) p q =
    (p.1 ^ 2 + p.1 * q.1 + q.1 ^ 2) / 3 * (q.2 - p.2) := by
  unfold segIntegral
  rw [intervalIntegral.integral_mul_const]
  have : ∀ t : ℝ, (p.1 + t * (q.1 - p.1)) ^ 2 =
      p.1 ^ 2 + (2 * p.1 * (q.1 - p.1)) * t + (q.1 - p.1) ^ 2 * t ^ 2 := fun t => by ring
  simp only [this, seg_poly2]
  ring

theorem seg_xz (p q : ℝ × ℝ) : segIntegral (fun x z => x * z) p q =
    (2 * p.1 * p.2 + p.1 * q.2 + q.1 * p.2 + 2 * q.1 * q.2) / 6 * (q.2 - p.2) := by
  unfold segIntegral
  rw [intervalIntegral.integral_mul_const]
  have : ∀ t : ℝ, (p.1 + t * (q.1 - p.1)) * (p.2 + t * (q.2 - p.2)) =
      p.1 * p.2 + (p.1 * (q.2 - p.2) + p.2 * (q.1 - p.1)) * t +
        ((q.1 - p.1) * (q.2 - p.2)) * t ^ 2 := fun t => by ring
  simp only [this, seg_poly2]
  ring

/-- The shoelace sum. -/
def shoelace (l : List (ℝ × ℝ)) : ℝ := edgeSum (fun p q => p.1 * q.2 - q.1 * p.2) l

theorem shoelace_eq (l : List (ℝ × ℝ)) (h : ExactlyClosed l) :
    shoelace l = 2 * contour (fun x _ => x) l := by
  rw [contour_eq, shoelace, ← edgeSum_mul]
  have := edgeSum_closed (fun p => p.1 * p.2) l h
  have e := edgeSum_add (fun p q => p.1 * q.2 - q.1 * p.2) (fun p q => q.1 * q.2 - p.1 * p.2) l
  rw [this, add_zero] at e
  rw [← e]
  exact edgeSum_congr _ _ (fun p q => by rw [seg_x]; ring) l

theorem cx_eq (l : List (ℝ × ℝ)) (h : ExactlyClosed l) :
    edgeSum (fun p q => (p.1 + q.1) * (p.1 * q.2 - q.1 * p.2)) l =
      3 * contour (fun x _ => x ^ 2) l := by
  rw [contour_eq, ← edgeSum_mul]
  have := edgeSum_closed (fun p => p.1 ^ 2 * p.2) l h
  have e := edgeSum_add (fun p q => (p.1 + q.1) * (p.1 * q.2 - q.1 * p.2))
    (fun p q => q.1 ^ 2 * q.2 - p.1 ^ 2 * p.2) l
  rw [this, add_zero] at e
  rw [← e]
  exact edgeSum_congr _ _ (fun p q => by rw [seg_xx]; ring) l

theorem cz_eq (l : List (ℝ × ℝ)) (h : ExactlyClosed l) :
    edgeSum (fun p q => (p.2 + q.2) * (p.1 * q.2 - q.1 * p.2)) l =
      6 * contour (fun x z => x * z) l := by
  rw [contour_eq, ← edgeSum_mul]
  have := edgeSum_closed (fun p => 2 * p.1 * p.2 ^ 2) l h
  have e := edgeSum_add (fun p q => (p.2 + q.2) * (p.1 * q.2 - q.1 * p.2))
    (fun p q => 2 * q.1 * q.2 ^ 2 - 2 * p.1 * p.2 ^ 2) l
  rw [this, add_zero] at e
  rw [← e]
  exact edgeSum_congr _ _ (fun p q => by rw [seg_xz]; ring) l

theorem ccw_iff (l : List (ℝ × ℝ)) (h : ExactlyClosed l) :
    checkCcw l ↔ 0 < contour (fun x _ => x) l := by
  have e : edgeSum (fun p q => (q.1 - p.1) * (q.2 + p.2)) l = -(2 * contour (fun x _ => x) l) := by
    rw [← shoelace_eq l h, shoelace]
    have h1 := edgeSum_closed (fun p => p.1 * p.2) l h
    have h2 := edgeSum_add (fun p q => (q.1 - p.1) * (q.2 + p.2))
      (fun p q => p.1 * q.2 - q.1 * p.2) l
    have h3 := edgeSum_congr (fun p q => (q.1 - p.1) * (q.2 + p.2) + (p.1 * q.2 - q.1 * p.2))
      (fun p q => q.1 * q.2 - p.1 * p.2) (fun p q => by ring) l
    linarith
  unfold checkCcw
  rw [e]
  constructor <;> intro h <;> linarith

theorem zipWith_roll (l : List (ℝ × ℝ)) (a : ℝ × ℝ) :
    (List.zipWith (fun p q : ℝ × ℝ => p.1 * q.2) l (a :: l.dropLast)).sum -
      (List.zipWith (fun p q : ℝ × ℝ => p.2 * q.1) l (a :: l.dropLast)).sum =
      - edgeSum (fun p q => p.1 * q.2 - q.1 * p.2) (a :: l) := by
  induction l generalizing a with
  | nil => simp [edgeSum]
  | cons b l ih =>
    cases l with
    | nil => simp [edgeSum]; ring
    | cons c l =>
      have := ih b
      have hd : (b :: c :: l).dropLast = b :: (c :: l).dropLast := rfl
      have e : ∀ f : ℝ × ℝ → ℝ × ℝ → ℝ, (List.zipWith f (b :: c :: l)
          (a :: (b :: c :: l).dropLast)).sum =
          f b a + (List.zipWith f (c :: l) (b :: (c :: l).dropLast)).sum := by
        intro f; rw [hd, List.zipWith_cons_cons, List.sum_cons]
      rw [e, e, edgeSum]
      linarith

theorem area_shoelace (l : List (ℝ × ℝ)) (h : ExactlyClosed l) :
    getArea2d l = 1 / 2 * |shoelace l| := by
  obtain ⟨hne, he⟩ := h
  cases l with
  | nil => exact absurd rfl hne
  | cons p l =>
    have hb : (p :: l).getLast? = some p := by rw [← he]; rfl
    unfold getArea2d roll
    rw [hb]
    simp only
    rw [zipWith_roll, abs_neg]
    have : edgeSum (fun p q => p.1 * q.2 - q.1 * p.2) (p :: p :: l) = shoelace (p :: l) := by
      rw [edgeSum, shoelace]; ring
    rw [this]

theorem closed_reverse (l : List (ℝ × ℝ)) (h : ExactlyClosed l) : ExactlyClosed l.reverse := by
  obtain ⟨h1, h2⟩ := h
  exact ⟨by simpa using h1, by rw [List.head?_reverse, List.getLast?_reverse, h2]⟩

theorem contour_reverse (g : ℝ → ℝ → ℝ) (l : List (ℝ × ℝ))
    (hg : ∀ p q, segIntegral g q p = -segIntegral g p q) : contour g l.reverse = -contour g l := by
  rw [contour_eq, contour_eq, edgeSum_reverse, edgeSum_congr _ _ (fun p q => hg p q),
    edgeSum_congr (fun p q => -segIntegral g p q) (fun p q => (-1) * segIntegral g p q)
      (fun p q => by ring), edgeSum_mul]
  ring

/-! ## C45 -/

/-- C45.  The area is the absolute contour integral of `x dz`. -/
theorem C45_area (l : List (ℝ × ℝ)) (h : ExactlyClosed l) :
    getArea2d l = |contour (fun x _ => x) l| := by
  rw [area_shoelace l h, shoelace_eq l h, abs_mul, abs_two]; ring

/-- C45.  The centroid is the first moment over the area: `∮ x²/2 dz` and `∮ x z dz` over `∮ x dz`. -/
theorem C45_centroid (l : List (ℝ × ℝ)) (h : ExactlyClosed l) (ha : getArea2d l ≠ 0) :
    (getCentroid2d l).1 = contour (fun x _ => x ^ 2) l / 2 / contour (fun x _ => x) l ∧
    (getCentroid2d l).2 = contour (fun x z => x * z) l / contour (fun x _ => x) l := by
  have hS : contour (fun x _ => x) l ≠ 0 := by
    intro h0; apply ha; rw [C45_area l h, h0, abs_zero]
  unfold getCentroid2d
  by_cases hc : checkCcw l
  · have hpos := (ccw_iff l h).1 hc
    simp only [if_pos hc, if_pos ha]
    rw [cx_eq l h, cz_eq l h, C45_area l h, abs_of_pos hpos]
    constructor <;> field_simp
    ring
  · have hneg : contour (fun x _ => x) l < 0 :=
      lt_of_le_of_ne (not_lt.1 fun hp => hc ((ccw_iff l h).2 hp)) hS
    have hr := closed_reverse l h
    have r1 := contour_reverse (fun x _ => x) l (fun p q => by rw [seg_x, seg_x]; ring)
    have r2 := contour_reverse (fun x _ => x ^ 2) l (fun p q => by rw [seg_xx, seg_xx]; ring)
    have r3 := contour_reverse (fun x z => x * z) l (fun p q => by rw [seg_xz, seg_xz]; ring)
    have harea : getArea2d l.reverse = -contour (fun x _ => x) l := by
      rw [C45_area _ hr, r1, abs_neg, abs_of_neg hneg]
    simp only [if_neg hc]
    rw [if_pos (by rw [harea]; exact neg_ne_zero.2 hS)]
    simp only
    rw [cx_eq _ hr, cz_eq _ hr, harea, r2, r3]
    constructor <;> field_simp
    ring

/-- C45.  The volume is π times the contour integral of `x² dz`, with the sign of the orientation
(zero for a polygon of zero area). -/
theorem C45_volume (l : List (ℝ × ℝ)) (h : ExactlyClosed l) :
    surfaceVolume l =
      Real.pi * (SignType.sign (contour (fun x _ => x) l) * contour (fun x _ => x ^ 2) l) := by
  unfold surfaceVolume
  by_cases ha : getArea2d l = 0
  · have hS : contour (fun x _ => x) l = 0 := by
      rw [C45_area l h, abs_eq_zero] at ha; exact ha
    rw [ha, hS]; simp
  · have hS : contour (fun x _ => x) l ≠ 0 := by
      intro h0; apply ha; rw [C45_area l h, h0, abs_zero]
    rw [(C45_centroid l h ha).1, C45_area l h]
    have : |contour (fun x _ => x) l| =
        SignType.sign (contour (fun x _ => x) l) * contour (fun x _ => x) l :=
      (sign_mul_self _).symm
    rw [this]
    field_simp

/-- C45.  For a polygon that is star-shaped about a point `c` (seen from `c` it is traversed in one
direction) and lies at non-negative radius, the volume is π times the absolute value of `∮ x² dz`, and
is non-negative. -/
theorem C45_volume_star (l : List (ℝ × ℝ)) (h : ExactlyClosed l) (c : ℝ × ℝ) (hc : 0 ≤ c.1)
    (hx : ∀ p ∈ l, 0 ≤ p.1)
    (hstar : l.IsChain (fun p q =>
      0 ≤ (p.1 - c.1) * (q.2 - c.2) - (q.1 - c.1) * (p.2 - c.2))) :
    surfaceVolume l = Real.pi * |contour (fun x _ => x ^ 2) l| ∧ 0 ≤ surfaceVolume l := by
  have key : ∀ f : ℝ × ℝ → ℝ × ℝ → ℝ, ∀ l : List (ℝ × ℝ), (∀ p ∈ l, 0 ≤ p.1) →
      l.IsChain (fun p q => 0 ≤ (p.1 - c.1) * (q.2 - c.2) - (q.1 - c.1) * (p.2 - c.2)) →
      (∀ p q : ℝ × ℝ, 0 ≤ p.1 → 0 ≤ q.1 →
        0 ≤ (p.1 - c.1) * (q.2 - c.2) - (q.1 - c.1) * (p.2 - c.2) → 0 ≤ f p q) →
      0 ≤ edgeSum f l := by
    intro f l hx hs hf
    induction l with
    | nil => simp [edgeSum]
    | cons p l ih =>
      cases l with
      | nil => simp [edgeSum]
      | cons q l =>
        obtain ⟨s1, s2⟩ := List.isChain_cons_cons.1 hs
        rw [edgeSum]
        exact add_nonneg (hf p q (hx _ (by simp)) (hx _ (by simp)) s1)
          (ih (fun p hp => hx p (List.mem_cons_of_mem _ hp)) s2)
  have hA : 0 ≤ contour (fun x _ => x) l := by
    have h1 := key (fun p q => (p.1 - c.1) * (q.2 - c.2) - (q.1 - c.1) * (p.2 - c.2)) l hx hstar
      (fun p q _ _ h => h)
    have h2 := edgeSum_closed (fun p => -c.1 * p.2 + c.2 * p.1) l h
    have h3 := edgeSum_add (fun p q => p.1 * q.2 - q.1 * p.2)
      (fun p q => (-c.1 * q.2 + c.2 * q.1) - (-c.1 * p.2 + c.2 * p.1)) l
    have h4 := edgeSum_congr
      (fun p q => (p.1 - c.1) * (q.2 - c.2) - (q.1 - c.1) * (p.2 - c.2))
      (fun p q => (p.1 * q.2 - q.1 * p.2) + ((-c.1 * q.2 + c.2 * q.1) - (-c.1 * p.2 + c.2 * p.1)))
      (fun p q => by ring) l
    have h5 := shoelace_eq l h
    rw [shoelace] at h5
    linarith
  have hV : 0 ≤ contour (fun x _ => x ^ 2) l := by
    have h1 := key (fun p q => (c.1 + p.1 + q.1) *
        ((p.1 - c.1) * (q.2 - c.2) - (q.1 - c.1) * (p.2 - c.2))) l hx hstar
      (fun p q h1 h2 h => mul_nonneg (by linarith) h)
    have h2 := edgeSum_closed (fun p => -c.1 ^ 2 * p.2 + c.1 * c.2 * p.1 + c.2 * p.1 ^ 2
      - c.1 * p.1 * p.2) l h
    have h3 := edgeSum_add (fun p q => (p.1 + q.1) * (p.1 * q.2 - q.1 * p.2))
      (fun p q => (-c.1 ^ 2 * q.2 + c.1 * c.2 * q.1 + c.2 * q.1 ^ 2 - c.1 * q.1 * q.2) -
        (-c.1 ^ 2 * p.2 + c.1 * c.2 * p.1 + c.2 * p.1 ^ 2 - c.1 * p.1 * p.2)) l
    have h4 := edgeSum_congr
      (fun p q => (c.1 + p.1 + q.1) *
        ((p.1 - c.1) * (q.2 - c.2) - (q.1 - c.1) * (p.2 - c.2)))
      (fun p q => ((p.1 + q.1) * (p.1 * q.2 - q.1 * p.2)) +
        ((-c.1 ^ 2 * q.2 + c.1 * c.2 * q.1 + c.2 * q.1 ^ 2 - c.1 * q.1 * q.2) -
        (-c.1 ^ 2 * p.2 + c.1 * c.2 * p.1 + c.2 * p.1 ^ 2 - c.1 * p.1 * p.2)))
      (fun p q => by ring) l
    have h5 := cx_eq l h
    linarith
  rw [C45_volume l h, abs_of_nonneg hV]
  rcases hA.eq_or_lt with h0 | h0
  · -- zero area: all triangles from `c` degenerate, so the moment vanishes too
    have hz : contour (fun x _ => x ^ 2) l = 0 := by
      have hs0 : edgeSum (fun p q => (p.1 - c.1) * (q.2 - c.2) - (q.1 - c.1) * (p.2 - c.2)) l = 0 := by
        have h2 := edgeSum_closed (fun p => -c.1 * p.2 + c.2 * p.1) l h
        have h3 := edgeSum_add (fun p q => p.1 * q.2 - q.1 * p.2)
          (fun p q => (-c.1 * q.2 + c.2 * q.1) - (-c.1 * p.2 + c.2 * p.1)) l
        have h4 := edgeSum_congr
          (fun p q => (p.1 - c.1) * (q.2 - c.2) - (q.1 - c.1) * (p.2 - c.2))
          (fun p q => (p.1 * q.2 - q.1 * p.2) +
            ((-c.1 * q.2 + c.2 * q.1) - (-c.1 * p.2 + c.2 * p.1)))
          (fun p q => by ring) l
        have h5 := shoelace_eq l h
        rw [shoelace] at h5
        linarith
      have hz2 : ∀ l : List (ℝ × ℝ),
          l.IsChain (fun p q => 0 ≤ (p.1 - c.1) * (q.2 - c.2) - (q.1 - c.1) * (p.2 - c.2)) →
          edgeSum (fun p q => (p.1 - c.1) * (q.2 - c.2) - (q.1 - c.1) * (p.2 - c.2)) l = 0 →
          edgeSum (fun p q => (c.1 + p.1 + q.1) *
            ((p.1 - c.1) * (q.2 - c.2) - (q.1 - c.1) * (p.2 - c.2))) l = 0 := by
        intro l hs h0
        induction l with
        | nil => rfl
        | cons p l ih =>
          cases l with
          | nil => rfl
          | cons q l =>
            obtain ⟨s1, s2⟩ := List.isChain_cons_cons.1 hs
            have hn : ∀ l : List (ℝ × ℝ), l.IsChain (fun p q => 0 ≤ (p.1 - c.1) * (q.2 - c.2) -
                (q.1 - c.1) * (p.2 - c.2)) → 0 ≤ edgeSum (fun p q => (p.1 - c.1) * (q.2 - c.2) -
                (q.1 - c.1) * (p.2 - c.2)) l := by
              intro l hl
              induction l with
              | nil => simp [edgeSum]
              | cons a l ih' =>
                cases l with
                | nil => simp [edgeSum]
                | cons b l =>
                  obtain ⟨t1, t2⟩ := List.isChain_cons_cons.1 hl
                  rw [edgeSum]
                  exact add_nonneg t1 (ih' t2)
            have h6 := hn _ s2
            rw [edgeSum] at h0 ⊢
            have e1 : (p.1 - c.1) * (q.2 - c.2) - (q.1 - c.1) * (p.2 - c.2) = 0 := by linarith
            rw [e1, mul_zero, zero_add]
            exact ih s2 (by linarith)
      have h1 := hz2 l hstar hs0
      have h2 := edgeSum_closed (fun p => -c.1 ^ 2 * p.2 + c.1 * c.2 * p.1 + c.2 * p.1 ^ 2
        - c.1 * p.1 * p.2) l h
      have h3 := edgeSum_add (fun p q => (p.1 + q.1) * (p.1 * q.2 - q.1 * p.2))
        (fun p q => (-c.1 ^ 2 * q.2 + c.1 * c.2 * q.1 + c.2 * q.1 ^ 2 - c.1 * q.1 * q.2) -
          (-c.1 ^ 2 * p.2 + c.1 * c.2 * p.1 + c.2 * p.1 ^ 2 - c.1 * p.1 * p.2)) l
      have h4 := edgeSum_congr
        (fun p q => (c.1 + p.1 + q.1) *
          ((p.1 - c.1) * (q.2 - c.2) - (q.1 - c.1) * (p.2 - c.2)))
        (fun p q => ((p.1 + q.1) * (p.1 * q.2 - q.1 * p.2)) +
          ((-c.1 ^ 2 * q.2 + c.1 * c.2 * q.1 + c.2 * q.1 ^ 2 - c.1 * q.1 * q.2) -
          (-c.1 ^ 2 * p.2 + c.1 * c.2 * p.1 + c.2 * p.1 ^ 2 - c.1 * p.1 * p.2)))
        (fun p q => by ring) l
      have h5 := cx_eq l h
      linarith
    rw [hz]; simp
  · rw [sign_pos h0]
    refine ⟨by simp, ?_⟩
    simp only [SignType.coe_one, one_mul]
    exact mul_nonneg Real.pi_pos.le hV

/-- C45.  The direction of traversal is irrelevant. -/
theorem C45_direction (l : List (ℝ × ℝ)) (h : ExactlyClosed l) (ha : getArea2d l ≠ 0) :
    getArea2d l.reverse = getArea2d l ∧ getCentroid2d l.reverse = getCentroid2d l ∧
    surfaceVolume l.reverse = surfaceVolume l := by
  have hr := closed_reverse l h
  have r1 := contour_reverse (fun x _ => x) l (fun p q => by rw [seg_x, seg_x]; ring)
  have r2 := contour_reverse (fun x _ => x ^ 2) l (fun p q => by rw [seg_xx, seg_xx]; ring)
  have r3 := contour_reverse (fun x z => x * z) l (fun p q => by rw [seg_xz, seg_xz]; ring)
  have a1 : getArea2d l.reverse = getArea2d l := by rw [C45_area _ hr, C45_area _ h, r1, abs_neg]
  have a2 : getCentroid2d l.reverse = getCentroid2d l := by
    obtain ⟨u1, u2⟩ := C45_centroid l h ha
    obtain ⟨v1, v2⟩ := C45_centroid l.reverse hr (by rw [a1]; exact ha)
    refine Prod.ext ?_ ?_
    · rw [u1, v1, r1, r2, neg_div, neg_div_neg_eq]
    · rw [u2, v2, r1, r3, neg_div_neg_eq]
  exact ⟨a1, a2, by rw [surfaceVolume, surfaceVolume, a1, a2]⟩

/-- The closed polygon through a cycle of vertices. -/
def closePolygon (v : List (ℝ × ℝ)) : List (ℝ × ℝ) := v ++ v.take 1

theorem closePolygon_closed (v : List (ℝ × ℝ)) (hv : v ≠ []) : ExactlyClosed (closePolygon v) := by
  cases v with
  | nil => exact absurd rfl hv
  | cons a v => exact ⟨by simp [closePolygon], by
    have : closePolygon (a :: v) = (a :: v) ++ [a] := by simp [closePolygon]
    rw [this, List.getLast?_append_of_ne_nil _ (by simp)]; simp⟩

theorem edgeSum_rotate (f : ℝ × ℝ → ℝ × ℝ → ℝ) (v : List (ℝ × ℝ)) (k : ℕ) :
    edgeSum f (closePolygon (v.rotate k)) = edgeSum f (closePolygon v) := by
  induction k with
  | zero => simp
  | succ k ih =>
    rw [← List.rotate_rotate, ← ih]
    generalize v.rotate k = w
    cases w with
    | nil => rfl
    | cons a w =>
      rw [List.rotate_cons_succ, List.rotate_zero]
      cases w with
      | nil => rfl
      | cons b w =>
        have e1 : closePolygon ((b :: w) ++ [a]) = (b :: w) ++ [a, b] := by simp [closePolygon]
        have e2 : closePolygon (a :: b :: w) = a :: ((b :: w) ++ [a]) := by simp [closePolygon]
        rw [e1, e2, edgeSum_append]
        simp only [List.cons_append, edgeSum]
        ring

/-- C45.  The choice of the starting vertex is irrelevant. -/
theorem C45_start (v : List (ℝ × ℝ)) (hv : v ≠ []) (k : ℕ)
    (ha : getArea2d (closePolygon v) ≠ 0) :
    getArea2d (closePolygon (v.rotate k)) = getArea2d (closePolygon v) ∧
    getCentroid2d (closePolygon (v.rotate k)) = getCentroid2d (closePolygon v) ∧
    surfaceVolume (closePolygon (v.rotate k)) = surfaceVolume (closePolygon v) := by
  have hc := closePolygon_closed v hv
  have hc' := closePolygon_closed (v.rotate k) (by
    rw [ne_eq, List.rotate_eq_nil_iff]; exact hv)
  have hr : ∀ g, contour g (closePolygon (v.rotate k)) = contour g (closePolygon v) := by
    intro g; rw [contour_eq, contour_eq, edgeSum_rotate]
  have a1 : getArea2d (closePolygon (v.rotate k)) = getArea2d (closePolygon v) := by
    rw [C45_area _ hc, C45_area _ hc', hr]
  have a2 : getCentroid2d (closePolygon (v.rotate k)) = getCentroid2d (closePolygon v) := by
    obtain ⟨u1, u2⟩ := C45_centroid _ hc ha
    obtain ⟨v1, v2⟩ := C45_centroid _ hc' (by rw [a1]; exact ha)
    refine Prod.ext ?_ ?_
    · rw [u1, v1, hr, hr]
    · rw [u2, v2, hr, hr]
  exact ⟨a1, a2, by rw [surfaceVolume, surfaceVolume, a1, a2]⟩

/-- C45.  Translating the polygon keeps its area and translates its centroid. -/
theorem C45_translate (l : List (ℝ × ℝ)) (h : ExactlyClosed l) (d : ℝ × ℝ)
    (ha : getArea2d l ≠ 0) :
    getArea2d (l.map (fun p => (p.1 + d.1, p.2 + d.2))) = getArea2d l ∧
    getCentroid2d (l.map (fun p => (p.1 + d.1, p.2 + d.2))) =
      ((getCentroid2d l).1 + d.1, (getCentroid2d l).2 + d.2) := by
  set m : ℝ × ℝ → ℝ × ℝ := fun p => (p.1 + d.1, p.2 + d.2) with hm
  have hc : ExactlyClosed (l.map m) := by
    obtain ⟨h1, h2⟩ := h
    exact ⟨by simpa using h1, by rw [List.head?_map, List.getLast?_map, h2]⟩
  have hS : contour (fun x _ => x) l ≠ 0 := by
    intro h0; apply ha; rw [C45_area l h, h0, abs_zero]
  have hz := edgeSum_closed (fun p => p.2) l h
  have e1 : contour (fun x _ => x) (l.map m) = contour (fun x _ => x) l := by
    rw [contour_eq, contour_eq, edgeSum_map]
    have h3 := edgeSum_add (segIntegral fun x _ => x) (fun p q => d.1 * (q.2 - p.2)) l
    rw [edgeSum_mul, hz, mul_zero, add_zero] at h3
    rw [← h3]
    exact edgeSum_congr _ _ (fun p q => by rw [seg_x, seg_x, hm]; simp only; ring) l
  have e2 : contour (fun x _ => x ^ 2) (l.map m) =
      contour (fun x _ => x ^ 2) l + 2 * d.1 * contour (fun x _ => x) l := by
    rw [contour_eq, contour_eq, contour_eq, edgeSum_map]
    have h3 := edgeSum_add (fun p q => segIntegral (fun x _ => x ^ 2) p q +
      2 * d.1 * segIntegral (fun x _ => x) p q) (fun p q => d.1 ^ 2 * (q.2 - p.2)) l
    have h4 := edgeSum_add (segIntegral (fun x _ => x ^ 2))
      (fun p q => 2 * d.1 * segIntegral (fun x _ => x) p q) l
    rw [edgeSum_mul] at h4
    rw [edgeSum_mul, hz, mul_zero, add_zero, h4] at h3
    rw [← h3]
    exact edgeSum_congr _ _ (fun p q => by rw [seg_xx, seg_xx, seg_x, hm]; simp only; ring) l
  have e3 : contour (fun x z => x * z) (l.map m) =
      contour (fun x z => x * z) l + d.2 * contour (fun x _ => x) l := by
    rw [contour_eq, contour_eq, contour_eq, edgeSum_map]
    have hg := edgeSum_closed (fun p => d.1 * p.2 ^ 2 / 2 + d.1 * d.2 * p.2) l h
    have h3 := edgeSum_add (fun p q => segIntegral (fun x z => x * z) p q +
      d.2 * segIntegral (fun x _ => x) p q)
      (fun p q => (d.1 * q.2 ^ 2 / 2 + d.1 * d.2 * q.2) - (d.1 * p.2 ^ 2 / 2 + d.1 * d.2 * p.2)) l
    have h4 := edgeSum_add (segIntegral (fun x z => x * z))
      (fun p q => d.2 * segIntegral (fun x _ => x) p q) l
    rw [edgeSum_mul] at h4
    rw [hg, add_zero, h4] at h3
    rw [← h3]
    exact edgeSum_congr _ _ (fun p q => by rw [seg_xz, seg_xz, seg_x, hm]; simp only; ring) l
  have a1 : getArea2d (l.map m) = getArea2d l := by rw [C45_area _ hc, C45_area _ h, e1]
  refine ⟨a1, ?_⟩
  obtain ⟨u1, u2⟩ := C45_centroid l h ha
  obtain ⟨v1, v2⟩ := C45_centroid (l.map m) hc (by rw [a1]; exact ha)
  refine Prod.ext ?_ ?_
  · simp only; rw [v1, u1, e1, e2]; field_simp
  · simp only; rw [v2, u2, e1, e3]; field_simp

/-- The unit square at radius 1 to 2: area 1, centroid (1.5, 0.5), volume 3π. -/
example : getArea2d [(1,0), (2,0), (2,1), (1,1), (1,0)] = 1 ∧
    getCentroid2d [(1,0), (2,0), (2,1), (1,1), (1,0)] = (1.5, 0.5) ∧
    surfaceVolume [(1,0), (2,0), (2,1), (1,1), (1,0)] = 3 * Real.pi := by
  have hc : ExactlyClosed [((1:ℝ),(0:ℝ)), (2,0), (2,1), (1,1), (1,0)] := ⟨by simp, by simp⟩
  have h1 : contour (fun x _ => x) [((1:ℝ),(0:ℝ)), (2,0), (2,1), (1,1), (1,0)] = 1 := by
    simp only [contour, seg_x]; norm_num
  have h2 : contour (fun x _ => x ^ 2) [((1:ℝ),(0:ℝ)), (2,0), (2,1), (1,1), (1,0)] = 3 := by
    simp only [contour, seg_xx]; norm_num
  have h3 : contour (fun x z => x * z) [((1:ℝ),(0:ℝ)), (2,0), (2,1), (1,1), (1,0)] = 1/2 := by
    simp only [contour, seg_xz]; norm_num
  have ha : getArea2d [((1:ℝ),(0:ℝ)), (2,0), (2,1), (1,1), (1,0)] = 1 := by
    rw [C45_area _ hc, h1]; norm_num
  refine ⟨ha, ?_, ?_⟩
  · obtain ⟨u1, u2⟩ := C45_centroid _ hc (by rw [ha]; norm_num)
    exact Prod.ext (by rw [u1, h1, h2]; norm_num) (by rw [u2, h1, h3]; norm_num)
  · rw [C45_volume _ hc, h1, h2]; simp; ring

/-- A self-intersecting polygon can have a negative volume: orientation and moment disagree. -/
theorem C45_negative_volume : ∃ l, ExactlyClosed l ∧ (∀ p ∈ l, 0 < p.1) ∧ surfaceVolume l < 0 := by
  -- a large small-radius loop anticlockwise and a smaller large-radius loop clockwise
  refine ⟨[(1,0), (3,0), (3,2), (1,2), (1,0), (100,0), (100,1), (101,1), (101,0), (100,0), (1,0)],
    ⟨by simp, by simp⟩, ?_, ?_⟩
  · intro p hp
    simp at hp
    rcases hp with rfl | rfl | rfl | rfl | rfl | rfl | rfl | rfl | rfl | rfl | rfl <;> norm_num
  · rw [C45_volume _ ⟨by simp, by simp⟩]
    simp only [contour, seg_x, seg_xx]
    norm_num
    nlinarith [Real.pi_pos]

end
end TNS
