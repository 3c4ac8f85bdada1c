import Verif.Model.FluxMap
import Verif.Props.FausserAxis
import Mathlib.Analysis.Calculus.Deriv.MeanValue
/-
C73: `get_flux_surface` and `volume` of a flux map; closed form of the volume enclosed by a Fausser
flux surface, and when it grows with the flux.
-/

set_option autoImplicit false

namespace TNS
open Spec Filter Topology MeasureTheory
noncomputable section

/-! ## Polygons under scaling; centroid of convex polygons -/

theorem closed_map (l : List (ℝ × ℝ)) (h : ExactlyClosed l) (f : ℝ × ℝ → ℝ × ℝ) :
    ExactlyClosed (l.map f) :=
  ⟨by simpa using h.1, by rw [List.head?_map, List.getLast?_map, h.2]⟩

/-- C45.  Scaling a polygon by `k` and moving it: the area is multiplied by `k²`, the centroid moves
along with the points. -/
theorem C45_scale (l : List (ℝ × ℝ)) (h : ExactlyClosed l) (k : ℝ) (d : ℝ × ℝ) :
    getArea2d (l.map (fun p => (k * p.1 + d.1, k * p.2 + d.2))) = k ^ 2 * getArea2d l ∧
    (k ≠ 0 → getArea2d l ≠ 0 →
      (getCentroid2d (l.map (fun p => (k * p.1 + d.1, k * p.2 + d.2)))).1 =
        k * (getCentroid2d l).1 + d.1) := by
  set m : ℝ × ℝ → ℝ × ℝ := fun p => (k * p.1 + d.1, k * p.2 + d.2) with hm
  have hc := closed_map l h m
  have hz := edgeSum_closed (fun p => p.2) l h
  have e1 : contour (fun x _ => x) (l.map m) = k ^ 2 * contour (fun x _ => x) l := by
    rw [contour_eq, contour_eq, edgeSum_map]
    have h3 := edgeSum_add (fun p q => k ^ 2 * segIntegral (fun x _ => x) p q)
      (fun p q => d.1 * k * (q.2 - p.2)) l
    rw [edgeSum_mul, edgeSum_mul, hz, mul_zero, add_zero] at h3
    rw [← h3]
    exact edgeSum_congr _ _ (fun p q => by rw [seg_x, seg_x, hm]; simp only; ring) l
  have e2 : contour (fun x _ => x ^ 2) (l.map m) =
      k ^ 3 * contour (fun x _ => x ^ 2) l + 2 * d.1 * k ^ 2 * contour (fun x _ => x) l := by
    rw [contour_eq, contour_eq, contour_eq, edgeSum_map]
    have h3 := edgeSum_add (fun p q => k ^ 3 * segIntegral (fun x _ => x ^ 2) p q +
      2 * d.1 * k ^ 2 * segIntegral (fun x _ => x) p q) (fun p q => d.1 ^ 2 * k * (q.2 - p.2)) l
    have h4 := edgeSum_add (fun p q => k ^ 3 * segIntegral (fun x _ => x ^ 2) p q)
      (fun p q => 2 * d.1 * k ^ 2 * segIntegral (fun x _ => x) p q) l
    rw [edgeSum_mul, edgeSum_mul] at h4
    rw [edgeSum_mul, hz, mul_zero, add_zero, h4] at h3
    rw [← h3]
    exact edgeSum_congr _ _ (fun p q => by rw [seg_xx, seg_xx, seg_x, hm]; simp only; ring) l
  have a1 : getArea2d (l.map m) = k ^ 2 * getArea2d l := by
    rw [C45_area _ hc, C45_area _ h, e1, abs_mul, abs_of_nonneg (sq_nonneg k)]
  refine ⟨a1, fun hk ha => ?_⟩
  have hS : contour (fun x _ => x) l ≠ 0 := by
    intro h0; apply ha; rw [C45_area l h, h0, abs_zero]
  rw [(C45_centroid _ hc (by rw [a1]; exact mul_ne_zero (pow_ne_zero 2 hk) ha)).1,
    (C45_centroid l h ha).1, e1, e2]
  field_simp

/-- The cross products seen from the first vertex of a convex polygon are non-negative. -/
theorem convex_fan (o : ℝ × ℝ) (l : List (ℝ × ℝ)) (hc : ConvexPolygon (o :: l)) :
    (o :: l).IsChain (fun p q => 0 ≤ orient o p q) := by
  rw [List.isChain_iff_getElem]
  intro i hi
  rcases Nat.eq_zero_or_pos i with rfl | h0
  · simp [orient]
  · refine hc 0 i (i + 1) o _ _ h0 (by omega) rfl ?_ ?_
    · exact List.getElem?_eq_getElem _
    · exact List.getElem?_eq_getElem _

theorem edgeSum_le (f g : ℝ × ℝ → ℝ × ℝ → ℝ) (l : List (ℝ × ℝ))
    (h : l.IsChain (fun p q => f p q ≤ g p q)) : edgeSum f l ≤ edgeSum g l := by
  induction l with
  | nil => simp [edgeSum]
  | cons p l ih =>
    cases l with
    | nil => simp [edgeSum]
    | cons q l =>
      rw [List.isChain_cons_cons] at h
      simp only [edgeSum]
      exact add_le_add h.1 (ih h.2)

theorem chain_and_mem (R : ℝ × ℝ → ℝ × ℝ → Prop) (P : ℝ × ℝ → Prop) (l : List (ℝ × ℝ))
    (h : l.IsChain R) (hP : ∀ p ∈ l, P p) : l.IsChain (fun p q => R p q ∧ P p ∧ P q) := by
  induction l with
  | nil => simp
  | cons p l ih =>
    cases l with
    | nil => simp
    | cons q l =>
      rw [List.isChain_cons_cons] at h ⊢
      exact ⟨⟨h.1, hP _ (by simp), hP _ (by simp)⟩, ih h.2 fun x hx => hP x (List.mem_cons_of_mem _ hx)⟩

/-- C45.  The centroid of a convex polygon stays at least a third of the way from its innermost radius
towards its first vertex. -/
theorem C45_centroid_third (o : ℝ × ℝ) (l : List (ℝ × ℝ)) (h : ExactlyClosed (o :: l))
    (hc : ConvexPolygon (o :: l)) (m : ℝ) (hm : ∀ p ∈ o :: l, m ≤ p.1)
    (ha : getArea2d (o :: l) ≠ 0) : (o.1 + 2 * m) / 3 ≤ (getCentroid2d (o :: l)).1 := by
  set L := o :: l with hL
  have hfan := convex_fan o l hc
  rw [← hL] at hfan
  -- twice the area, from the first vertex
  have hS : edgeSum (fun p q => orient o p q) L = 2 * contour (fun x _ => x) L := by
    rw [← shoelace_eq L h, shoelace]
    have h1 := edgeSum_closed (fun p => o.2 * p.1 - o.1 * p.2) L h
    have h2 := edgeSum_add (fun p q => p.1 * q.2 - q.1 * p.2)
      (fun p q => (o.2 * q.1 - o.1 * q.2) - (o.2 * p.1 - o.1 * p.2)) L
    rw [h1, add_zero] at h2
    rw [← h2]
    exact edgeSum_congr _ _ (fun p q => by simp only [orient]; ring) L
  have hM : edgeSum (fun p q => (o.1 + p.1 + q.1) * orient o p q) L =
      3 * contour (fun x _ => x ^ 2) L := by
    rw [← cx_eq L h]
    have h1 := edgeSum_closed (fun p => o.1 * o.2 * p.1 - o.1 ^ 2 * p.2 + o.2 * p.1 ^ 2
      - o.1 * (p.1 * p.2)) L h
    have h2 := edgeSum_add (fun p q => (p.1 + q.1) * (p.1 * q.2 - q.1 * p.2))
      (fun p q => (o.1 * o.2 * q.1 - o.1 ^ 2 * q.2 + o.2 * q.1 ^ 2 - o.1 * (q.1 * q.2)) -
        (o.1 * o.2 * p.1 - o.1 ^ 2 * p.2 + o.2 * p.1 ^ 2 - o.1 * (p.1 * p.2))) L
    rw [h1, add_zero] at h2
    rw [← h2]
    exact edgeSum_congr _ _ (fun p q => by simp only [orient]; ring) L
  have hle : edgeSum (fun p q => (o.1 + 2 * m) * orient o p q) L ≤
      edgeSum (fun p q => (o.1 + p.1 + q.1) * orient o p q) L := by
    refine edgeSum_le _ _ L ((chain_and_mem _ (fun p => m ≤ p.1) L hfan hm).imp ?_)
    rintro p q ⟨h1, h2, h3⟩
    exact mul_le_mul_of_nonneg_right (by linarith) h1
  have hpos : 0 ≤ edgeSum (fun p q => orient o p q) L := by
    have := edgeSum_le (fun _ _ => 0 * (0 : ℝ)) (fun p q => orient o p q) L (by simpa using hfan)
    rw [edgeSum_mul] at this
    linarith
  rw [edgeSum_mul, hS, hM] at hle
  have hS0 : contour (fun x _ => x) L ≠ 0 := by
    intro h0; apply ha; rw [C45_area L h, h0, abs_zero]
  have hSpos : 0 < contour (fun x _ => x) L := lt_of_le_of_ne (by linarith) hS0.symm
  rw [(C45_centroid L h ha).1, le_div_iff₀ hSpos]
  linarith

/-! ## Fausser surfaces -/

/-- The surface of flux `psi` is the LCFS scaled by `psi` about the geometric centre, and shifted. -/
theorem fausser_scaled (l : LCFSInfo ℝ) (psi : ℝ) (n : ℕ) (pts pts1 : List (ℝ × ℝ))
    (h : fluxSurface .fausser l psi n = .ok pts) (h1 : fluxSurface .fausser l 1 n = .ok pts1) :
    pts = pts1.map (fun p => (psi * p.1 + (l.r0 + |l.shift| * (1 - psi ^ 2) - psi * l.r0),
      psi * p.2 + (l.z0 - psi * l.z0))) := by
  rw [fluxSurface_eq _ _ _ _ _ h, fluxSurface_eq _ _ _ _ _ h1, List.map_map]
  refine List.map_congr_left fun al _ => ?_
  simp only [Parameterisation.point, fausserPoint, Function.comp, Prod.mk.injEq]
  constructor <;> ring

theorem fausser_exactlyClosed (l : LCFSInfo ℝ) (psi : ℝ) (n : ℕ) (hn : 1 ≤ n) (pts : List (ℝ × ℝ))
    (h : fluxSurface .fausser l psi n = .ok pts) : ExactlyClosed pts := by
  obtain ⟨s, hs, hlen, -, hlast⟩ := C42_closed .fausser l psi n hn
  rw [h] at hs
  obtain rfl := Except.ok.inj hs
  exact ⟨by intro h0; rw [h0] at hlen; simp at hlen; omega, hlast.symm⟩

/-- C73.  Area and volume enclosed by a Fausser surface, from area `A` and centroid radius `x_c` of the
LCFS: the area is `ψ² A`, the volume `2 π ψ² A (r_0 + Δ (1 - ψ²) + ψ (x_c - r_0))`. -/
theorem C73_fausser_volume (r0 z0 aspect kappa delta shift sq : ℝ) (l : LCFSInfo ℝ)
    (hl : LCFSInfo.make r0 z0 aspect kappa delta shift sq = .ok l) (n : ℕ) (hn : 1 ≤ n) (psi : ℝ)
    (pts lcfs : List (ℝ × ℝ)) (h : fluxSurface .fausser l psi n = .ok pts)
    (h1 : fluxSurface .fausser l 1 n = .ok lcfs) :
    getArea2d pts = psi ^ 2 * getArea2d lcfs ∧
    surfaceVolume pts = 2 * Real.pi * (psi ^ 2 * getArea2d lcfs) *
      (r0 + |shift| * (1 - psi ^ 2) + psi * ((getCentroid2d lcfs).1 - r0)) := by
  obtain ⟨⟨e1, e2, -, -, -, -, e7⟩, -⟩ := C39_stored _ _ _ _ _ _ _ l hl
  have hcl := fausser_exactlyClosed l 1 n hn lcfs h1
  have e := fausser_scaled l psi n pts lcfs h h1
  rw [e1, e2, e7, abs_abs] at e
  have key := C45_scale lcfs hcl psi (r0 + |shift| * (1 - psi ^ 2) - psi * r0, z0 - psi * z0)
  simp only [← e] at key
  refine ⟨key.1, ?_⟩
  unfold surfaceVolume
  rw [key.1]
  by_cases hp : psi = 0
  · simp [hp]
  by_cases ha : getArea2d lcfs = 0
  · simp [ha]
  · rw [key.2 hp ha]; ring

/-- The LCFS of a Fausser plasma encloses a positive area. -/
theorem fausser_area_pos (r0 z0 aspect kappa delta shift sq : ℝ) (l : LCFSInfo ℝ)
    (hl : LCFSInfo.make r0 z0 aspect kappa delta shift sq = .ok l) (n : ℕ) (hn : 5 ≤ n)
    (lcfs : List (ℝ × ℝ)) (h1 : fluxSurface .fausser l 1 n = .ok lcfs) : 0 < getArea2d lcfs := by
  obtain ⟨hcl, -, hw⟩ := C66_winds_once _ _ _ _ _ _ _ l hl 1 n (by omega) lcfs h1
  have hlen : 3 ≤ lcfs.length := by
    rw [fluxSurface_eq _ _ _ _ _ h1, List.length_map, angles_length]; omega
  have hA := green (fun _ => 1) (fun x => x) continuous_const (fun x => hasDerivAt_id x) lcfs hcl hlen 1
    hw
  have hfin : volume {p | containsPoint lcfs p = true} ≠ ⊤ := by
    refine ne_top_of_le_ne_top ?_ (measure_mono (t := Set.Icc (npMin (lcfs.map Prod.fst))
      (npMax (lcfs.map Prod.fst)) ×ˢ Set.Icc (npMin (lcfs.map Prod.snd))
      (npMax (lcfs.map Prod.snd))) ?_)
    · rw [Measure.volume_eq_prod, Measure.prod_prod, Real.volume_Icc, Real.volume_Icc]
      exact (ENNReal.mul_lt_top ENNReal.ofReal_lt_top ENNReal.ofReal_lt_top).ne
    · intro p hp
      obtain ⟨⟨a, ha, ha'⟩, ⟨b, hb, hb'⟩, ⟨c, hc1, hc'⟩, ⟨d, hd, hd'⟩⟩ := C65_within_box lcfs p hp
      exact ⟨⟨(npMin_le _ a ha).trans ha', hb'.trans (le_npMax _ b hb)⟩,
        (npMin_le _ c hc1).trans hc', hd'.trans (le_npMax _ d hd)⟩
  obtain ⟨ε, hε, hin⟩ := C66_axis_neighbourhood _ _ _ _ _ _ _ l hl n hn lcfs h1
  have hpos : 0 < volume {p | containsPoint lcfs p = true} := by
    refine lt_of_lt_of_le ?_ (measure_mono (s := Set.Ioo ((paramOPoint l).x - ε) ((paramOPoint l).x + ε)
      ×ˢ Set.Ioc ((paramOPoint l).z - ε) (paramOPoint l).z) ?_)
    · rw [Measure.volume_eq_prod, Measure.prod_prod, Real.volume_Ioo, Real.volume_Ioc]
      exact ENNReal.mul_pos (by simpa using by linarith) (by simpa using hε)
    · rintro ⟨x, z⟩ ⟨hx, hz⟩
      simp only [Set.mem_Ioo, Set.mem_Ioc] at hx hz
      exact hin x z (abs_lt.2 ⟨by linarith, by linarith⟩) hz.1 hz.2
  rw [setIntegral_const, smul_eq_mul, mul_one, Measure.real] at hA
  have h2 := ENNReal.toReal_pos hpos.ne' hfin
  rw [hA] at h2
  rw [C45_area lcfs hcl]
  exact abs_pos.2 (by intro h0; rw [h0] at h2; simp at h2)

/-- The volume of a Fausser surface as a function of the flux. -/
def fausserVolume (l : LCFSInfo ℝ) (n : ℕ) (psi : ℝ) : ℝ :=
  surfaceVolume ((angles n).map (fausserPoint l psi))

theorem poly_mono (R D c : ℝ) (hR : 0 < R + D) (hD : 0 ≤ D) :
    StrictMonoOn (fun x : ℝ => x ^ 2 * (R + D * (1 - x ^ 2) + x * c)) (Set.Icc 0 1) ↔
      0 ≤ 2 * R - 2 * D + 3 * c := by
  have hder : ∀ x : ℝ, HasDerivAt (fun x : ℝ => x ^ 2 * (R + D * (1 - x ^ 2) + x * c))
      (x * ((1 - x) * (2 * (R + D)) + x * (2 * R - 2 * D + 3 * c) + 4 * D * (x * (1 - x)))) x := by
    intro x
    have h1 := (hasDerivAt_id x).pow 2
    have h2 := (((hasDerivAt_id x).pow 2).const_sub 1).const_mul D
    have h3 := (h2.const_add R).add ((hasDerivAt_id x).mul_const c)
    refine (h1.mul h3).congr_deriv ?_
    simp
    ring
  constructor
  · intro hm
    by_contra hneg
    push Not at hneg
    -- the difference quotient towards 1 tends to the negative slope there
    have hc : Continuous fun s : ℝ => (R + D) * (1 + s) + c * (1 + s + s ^ 2) -
        D * (1 + s + s ^ 2 + s ^ 3) := by fun_prop
    have hlim : ∀ᶠ s in 𝓝 (1 : ℝ), (R + D) * (1 + s) + c * (1 + s + s ^ 2) -
        D * (1 + s + s ^ 2 + s ^ 3) < 0 :=
      hc.continuousAt.eventually_lt continuousAt_const (by norm_num; linarith)
    obtain ⟨δ, hδ, hs⟩ := Metric.eventually_nhds_iff.1 hlim
    set s : ℝ := 1 - min δ 1 / 2 with hsdef
    have hm0 : 0 < min δ 1 := lt_min hδ one_pos
    have hm1 : min δ 1 ≤ 1 := min_le_right _ _
    have hmd : min δ 1 ≤ δ := min_le_left _ _
    have h1 := hs (y := s) (by rw [Real.dist_eq, abs_lt]; constructor <;> linarith)
    have h2 := hm (a := s) ⟨by linarith, by linarith⟩ (b := 1) ⟨by norm_num, le_refl _⟩ (by linarith)
    simp only at h2
    have h3 : (1 : ℝ) ^ 2 * (R + D * (1 - 1 ^ 2) + 1 * c) - s ^ 2 * (R + D * (1 - s ^ 2) + s * c) =
        (1 - s) * ((R + D) * (1 + s) + c * (1 + s + s ^ 2) - D * (1 + s + s ^ 2 + s ^ 3)) := by ring
    have h4 : (1 - s) * ((R + D) * (1 + s) + c * (1 + s + s ^ 2) - D * (1 + s + s ^ 2 + s ^ 3)) < 0 :=
      mul_neg_of_pos_of_neg (by linarith) h1
    linarith
  · intro h
    refine strictMonoOn_of_deriv_pos (convex_Icc 0 1)
      (fun x _ => (hder x).continuousAt.continuousWithinAt) fun x hx => ?_
    rw [interior_Icc] at hx
    rw [(hder x).deriv]
    have h1 : 0 < x := hx.1
    have h2 : 0 < 1 - x := by linarith [hx.2]
    have h3 : 0 < (1 - x) * (2 * (R + D)) := by positivity
    have h4 : 0 ≤ x * (2 * R - 2 * D + 3 * c) := by positivity
    have h5 : 0 ≤ 4 * D * (x * (1 - x)) := by positivity
    positivity

theorem fausserVolume_eq (r0 z0 aspect kappa delta shift sq : ℝ) (l : LCFSInfo ℝ)
    (hl : LCFSInfo.make r0 z0 aspect kappa delta shift sq = .ok l) (n : ℕ) (hn : 5 ≤ n)
    (lcfs : List (ℝ × ℝ)) (h1 : fluxSurface .fausser l 1 n = .ok lcfs) (psi : ℝ) :
    fausserVolume l n psi = 2 * Real.pi * getArea2d lcfs *
      (psi ^ 2 * (r0 + |shift| * (1 - psi ^ 2) + psi * ((getCentroid2d lcfs).1 - r0))) := by
  obtain ⟨pts, hp, -⟩ := C42_closed .fausser l psi n (by omega)
  have e := fluxSurface_eq _ _ _ _ _ hp
  have h2 := (C73_fausser_volume _ _ _ _ _ _ _ l hl n (by omega) psi pts lcfs hp h1).2
  rw [e] at h2
  unfold fausserVolume
  rw [show Parameterisation.fausser.point l psi = fausserPoint l psi from rfl] at h2
  rw [h2]; ring

/-- C73.  The enclosed volume grows strictly with the flux, from axis to LCFS, exactly when
`2 (r_0 - Δ) + 3 (x_c - r_0) ≥ 0`, with `x_c` the centroid radius of the LCFS. -/
theorem fausser_monotone_iff (r0 z0 aspect kappa delta shift sq : ℝ) (l : LCFSInfo ℝ)
    (hl : LCFSInfo.make r0 z0 aspect kappa delta shift sq = .ok l) (n : ℕ) (hn : 5 ≤ n)
    (lcfs : List (ℝ × ℝ)) (h1 : fluxSurface .fausser l 1 n = .ok lcfs) :
    StrictMonoOn (fausserVolume l n) (Set.Icc 0 1) ↔
      0 ≤ 2 * (r0 - |shift|) + 3 * ((getCentroid2d lcfs).1 - r0) := by
  have hA := fausser_area_pos _ _ _ _ _ _ _ l hl n hn lcfs h1
  have hr0 : 0 < r0 := ((C39_accepted r0 z0 aspect kappa delta shift sq).1 ⟨l, hl⟩).1
  have hD : 0 ≤ |shift| := abs_nonneg _
  have key := poly_mono r0 |shift| ((getCentroid2d lcfs).1 - r0) (by linarith) hD
  have hk : 0 < 2 * Real.pi * getArea2d lcfs := by have := Real.pi_pos; positivity
  have e : fausserVolume l n = fun psi => 2 * Real.pi * getArea2d lcfs *
      (psi ^ 2 * (r0 + |shift| * (1 - psi ^ 2) + psi * ((getCentroid2d lcfs).1 - r0))) :=
    funext fun psi => fausserVolume_eq _ _ _ _ _ _ _ l hl n hn lcfs h1 psi
  rw [mul_sub, ← key, e]
  constructor
  · intro h a ha b hb hab
    exact lt_of_mul_lt_mul_left (h ha hb hab) hk.le
  · intro h a ha b hb hab
    exact mul_lt_mul_of_pos_left (h ha hb hab) hk

/-- C73.  The centroid of the LCFS lies at most a third of the minor radius inside the geometric
centre; so the enclosed volume grows strictly with the flux whenever `2 Δ + a ≤ 2 r_0`, in particular
for every accepted plasma with nested surfaces (`2 Δ ≤ a`), and for every accepted plasma of aspect
ratio at least 3/2. -/
theorem fausser_monotone (r0 z0 aspect kappa delta shift sq : ℝ) (l : LCFSInfo ℝ)
    (hl : LCFSInfo.make r0 z0 aspect kappa delta shift sq = .ok l) (n : ℕ) (hn : 5 ≤ n)
    (lcfs : List (ℝ × ℝ)) (h1 : fluxSurface .fausser l 1 n = .ok lcfs) :
    r0 - r0 / aspect / 3 ≤ (getCentroid2d lcfs).1 ∧
    ((2 * |shift| + r0 / aspect ≤ 2 * r0 ∨ 2 * |shift| ≤ r0 / aspect ∨ 3 / 2 ≤ aspect) →
      StrictMonoOn (fausserVolume l n) (Set.Icc 0 1)) := by
  have hA := fausser_area_pos _ _ _ _ _ _ _ l hl n hn lcfs h1
  obtain ⟨hcl, hcv, -⟩ := C66_winds_once _ _ _ _ _ _ _ l hl 1 n (by omega) lcfs h1
  have acc := (C39_accepted r0 z0 aspect kappa delta shift sq).1 ⟨l, hl⟩
  obtain ⟨⟨e1, e2, e3, -⟩, -⟩ := C39_stored _ _ _ _ _ _ _ l hl
  have hbox := C40_box _ _ _ _ _ _ _ l hl 1 (by norm_num) (le_refl _) n lcfs h1
  have hhead : lcfs.head? = some (r0 + r0 / aspect, z0) := by
    obtain ⟨s, hs, -, hh, -⟩ := C42_closed .fausser l 1 n (by omega)
    rw [h1] at hs
    obtain rfl := Except.ok.inj hs
    rw [hh]
    simp [Parameterisation.point, fausserPoint, e1, e2, e3]
  have hcent : r0 - r0 / aspect / 3 ≤ (getCentroid2d lcfs).1 := by
    cases lcfs with
    | nil => simp at hhead
    | cons o t =>
      simp only [List.head?_cons, Option.some.injEq] at hhead
      have := C45_centroid_third o t hcl hcv (r0 - r0 / aspect) (fun p hp => (hbox p hp).2.2.2.1.1)
        hA.ne'
      rw [hhead] at this ⊢
      simp only at this
      linarith
  refine ⟨hcent, fun hcond => ?_⟩
  rw [fausser_monotone_iff _ _ _ _ _ _ _ l hl n hn lcfs h1]
  have ha : 0 < r0 / aspect := div_pos acc.1 (by linarith [acc.2.1])
  have hlt : r0 / aspect < r0 := div_lt_self acc.1 acc.2.1
  have hsh := acc.2.2.2.2
  rcases hcond with h | h | h
  · linarith
  · linarith
  · have : r0 / aspect ≤ r0 / (3 / 2) := div_le_div_of_nonneg_left acc.1.le (by norm_num) h
    have e : r0 / (3 / 2) = 2 * r0 / 3 := by ring
    rw [e] at this
    linarith

end
end TNS
