import Verif.Spec.FluxMap
import Verif.Props.Flux
import Verif.Props.Space
/-
C72: the flux map of an EQDSK file does not depend on the units, sign or gauge of the flux; the
boundary is where the file says the LCFS is.
-/

set_option autoImplicit false

namespace TNS
open Spec

theorem npMin_affine (l : List ℝ) (hl : l ≠ []) (k e : ℝ) (hk : 0 < k) :
    npMin (l.map (fun v => k * v + e)) = k * npMin l + e := by
  cases l with
  | nil => exact absurd rfl hl
  | cons a l =>
    simp only [List.map_cons, npMin]
    clear hl
    induction l generalizing a with
    | nil => rfl
    | cons b l ih =>
      simp only [List.map_cons, List.foldl_cons]
      rw [← ih]
      congr 1
      rcases le_total a b with h | h
      · rw [min_eq_left h, min_eq_left (by nlinarith)]
      · rw [min_eq_right h, min_eq_right (by nlinarith)]

theorem npMin_mem (l : List ℝ) (hl : l ≠ []) : npMin l ∈ l := by
  cases l with
  | nil => exact absurd rfl hl
  | cons a l =>
    simp only [npMin]
    clear hl
    induction l generalizing a with
    | nil => simp
    | cons b l ih =>
      simp only [List.foldl_cons]
      rcases le_total a b with h | h
      · rw [min_eq_left h]
        rcases List.mem_cons.1 (ih a) with h' | h' <;> simp [h']
      · rw [min_eq_right h]
        rcases List.mem_cons.1 (ih b) with h' | h' <;> simp [h']

theorem normalisePsi_affine (psi axis boundary c d : ℝ) (hc : c ≠ 0) (conv : FluxConvention) :
    normalisePsi (c * psi + d) (c * axis + d) (c * boundary + d) conv =
      normalisePsi psi axis boundary conv := by
  unfold normalisePsi
  rw [C43_affine psi axis boundary c d hc]

/-- Loading is an affine change of the flux, with a factor of either sign. -/
theorem loadEqdsk_affine (e : Eqdsk ℝ) : ∃ c d : ℝ, c ≠ 0 ∧
    (loadEqdsk e).psi = e.psi.map (fun v => c * v + d) ∧ (loadEqdsk e).psimag = c * e.psimag + d ∧
    (e.psimag ≠ e.psibdry → c * (e.psibdry - e.psimag) < 0) := by
  unfold loadEqdsk
  split_ifs with h
  · refine ⟨-1, e.psimag, by norm_num, ?_, by ring, fun _ => by linarith⟩
    exact List.map_congr_left fun v _ => by ring
  · refine ⟨1, 0, by norm_num, ?_, by ring, fun hne => ?_⟩
    · simp
    · have := lt_of_le_of_ne (not_lt.1 h) (Ne.symm hne)
      linarith

/-- Two files with the same equilibrium are loaded to fluxes that differ by a positive factor and an
offset. -/
theorem loadEqdsk_rescale (e : Eqdsk ℝ) (c d : ℝ) (hc : c ≠ 0) (hne : e.psimag ≠ e.psibdry) :
    ∃ k s : ℝ, 0 < k ∧
      (loadEqdsk ⟨e.psi.map (fun v => c * v + d), c * e.psimag + d, c * e.psibdry + d⟩).psi =
        (loadEqdsk e).psi.map (fun v => k * v + s) ∧
      (loadEqdsk ⟨e.psi.map (fun v => c * v + d), c * e.psimag + d, c * e.psibdry + d⟩).psimag =
        k * (loadEqdsk e).psimag + s := by
  have hne' : e.psibdry - e.psimag ≠ 0 := sub_ne_zero.2 (Ne.symm hne)
  obtain ⟨a, b, ha, h1, h2, h3⟩ := loadEqdsk_affine e
  obtain ⟨a', b', ha', h1', h2', h3'⟩ :=
    loadEqdsk_affine ⟨e.psi.map (fun v => c * v + d), c * e.psimag + d, c * e.psibdry + d⟩
  have h3 := h3 hne
  have h3' := h3' (by
    intro h
    have : c * (e.psibdry - e.psimag) = 0 := by simp only at h; linarith
    rcases mul_eq_zero.1 this with h | h
    · exact hc h
    · exact hne' h)
  simp only at h1' h2' h3'
  have hk : 0 < a' * c / a := by
    have e1 : 0 < (a * (e.psibdry - e.psimag)) * (a' * (c * (e.psibdry - e.psimag))) := by
      apply mul_pos_of_neg_of_neg h3
      have : a' * (c * (e.psibdry - e.psimag)) = a' * (c * e.psibdry + d - (c * e.psimag + d)) := by
        ring
      rw [this]; exact h3'
    have e2 : 0 < (e.psibdry - e.psimag) ^ 2 := by positivity
    have e3 : 0 < a * (a' * c) := by
      by_contra hcon
      push Not at hcon
      have : a * (a' * c) * (e.psibdry - e.psimag) ^ 2 ≤ 0 := mul_nonpos_of_nonpos_of_nonneg hcon e2.le
      nlinarith
    have e4 : a' * c / a = a * (a' * c) / a ^ 2 := by field_simp
    rw [e4]; positivity
  refine ⟨a' * c / a, a' * d + b' - a' * c / a * b, hk, ?_, ?_⟩
  · rw [h1', h1]
    simp only [List.map_map]
    refine List.map_congr_left fun v _ => ?_
    simp only [Function.comp]
    field_simp
    ring
  · rw [h2', h2]
    field_simp
    ring

theorem makeClosed_ok (pts l : List (ℝ × ℝ)) (h : makeClosed pts = .ok l) : l = pts ∧ pts ≠ [] := by
  cases pts with
  | nil => rw [C50_empty] at h; exact absurd h (by simp)
  | cons a t =>
    refine ⟨?_, by simp⟩
    unfold makeClosed at h
    cases hc : isClosed (a :: t) (closedTol : ℝ) with
    | error e => rw [hc] at h; simp [Bind.bind, Except.bind] at h
    | ok b => rw [hc] at h; cases b <;> simp [Bind.bind, Except.bind] at h; exact h.symm

/-- C72.  Every flux in the file multiplied by a non-zero factor of either sign and shifted by a
constant: the result is the same flux map (LCFS, axis position, normalised flux on the whole grid), or
the same error. -/
theorem C72_units (spline : List ℝ → ℝ × ℝ → ℝ) (f : EqdskFile)
    (hs : AffineInterpolation f.data.psi.length spline) (hne : f.data.psimag ≠ f.data.psibdry)
    (c d : ℝ) (hc : c ≠ 0) (conv : FluxConvention) :
    (∀ m, (fromEqdsk spline f conv).2 = .ok m → ∃ m', (fromEqdsk spline (rescale c d f) conv).2 = .ok m'
      ∧ m'.lcfs = m.lcfs ∧ m'.oPoint.x = m.oPoint.x ∧ m'.oPoint.z = m.oPoint.z ∧
      m'.psiNorm = m.psiNorm) ∧
    (∀ e, (fromEqdsk spline f conv).2 = .error e → (fromEqdsk spline (rescale c d f) conv).2 = .error e)
    := by
  simp only [fromEqdsk, rescale]
  cases hm : makeClosed f.bdry with
  | error e => simp [Bind.bind, Except.bind]
  | ok l =>
    simp only [Bind.bind, Except.bind, Except.ok.injEq, reduceCtorEq, false_imp_iff, implies_true,
      and_true]
    rintro m rfl
    refine ⟨_, rfl, rfl, rfl, rfl, ?_⟩
    obtain ⟨k, s, hk, h1, h2⟩ := loadEqdsk_rescale f.data c d hc hne
    obtain ⟨rfl, hb⟩ := makeClosed_ok _ _ hm
    simp only [fromEqdskPsi]
    rw [h1, h2]
    have hlen : (loadEqdsk f.data).psi.length = f.data.psi.length := by
      obtain ⟨a, b, -, h, -⟩ := loadEqdsk_affine f.data
      rw [h]; simp
    have e1 : f.bdry.map (spline ((loadEqdsk f.data).psi.map (fun v => k * v + s))) =
        (f.bdry.map (spline (loadEqdsk f.data).psi)).map (fun v => k * v + s) := by
      rw [List.map_map]
      exact List.map_congr_left fun p _ => hs _ hlen k s p
    rw [e1, npMin_affine _ (by simpa using hb) k s hk, List.map_map]
    exact List.map_congr_left fun v _ => normalisePsi_affine _ _ _ _ _ hk.ne' _

/-- C72.  The source constructor sees the same flux map, whatever the units or sign of the flux in the
file, hence gives the same source. -/
theorem C72_source (spline : List ℝ → ℝ × ℝ → ℝ) (f : EqdskFile)
    (hs : AffineInterpolation f.data.psi.length spline) (hne : f.data.psimag ≠ f.data.psibdry)
    (c d : ℝ) (hc : c ≠ 0) (conv : FluxConvention) (m m' : EqdskMap)
    (hm : (fromEqdsk spline f conv).2 = .ok m)
    (hm' : (fromEqdsk spline (rescale c d f) conv).2 = .ok m')
    (pi : ℝ) (Q : Reaction → ℝ) (sv : Reaction → List ℝ → Except Err (List ℝ)) (tr : TransportView ℝ)
    (arg : SourceArg) (L : ℝ) (power : Option ℝ) :
    Source.init pi Q sv tr (m'.view spline) arg L power =
      Source.init pi Q sv tr (m.view spline) arg L power := by
  obtain ⟨m'', h, h1, h2, h3, h4⟩ := (C72_units spline f hs hne c d hc conv).1 m hm
  obtain rfl : m' = m'' := by rw [hm'] at h; exact Except.ok.inj h
  have : m'.view spline = m.view spline := by
    unfold EqdskMap.view EqdskMap.value
    rw [h1, h2, h3, h4]
  rw [this]

/-- C72.  The boundary value used for the normalisation is not the one in the header of the file: it is
the outermost interpolated flux on the boundary points of the file (in terms of the file's own fluxes).
-/
theorem C72_boundary (spline : List ℝ → ℝ × ℝ → ℝ) (f : EqdskFile)
    (hs : AffineInterpolation f.data.psi.length spline) (hne : f.data.psimag ≠ f.data.psibdry)
    (conv : FluxConvention) (m : EqdskMap) (hm : (fromEqdsk spline f conv).2 = .ok m) :
    m.lcfs = f.bdry ∧ m.oPoint.x = f.xmag ∧ m.oPoint.z = f.zmag ∧
    ∃ B, OutermostValue f.data.psimag f.data.psibdry (f.bdry.map (spline f.data.psi)) B ∧
      m.psiNorm = f.data.psi.map (fun v => normalisePsi v f.data.psimag B conv) := by
  simp only [fromEqdsk] at hm
  cases hc : makeClosed f.bdry with
  | error e => rw [hc] at hm; simp [Bind.bind, Except.bind] at hm
  | ok l =>
    rw [hc] at hm
    simp only [Bind.bind, Except.bind, Except.ok.injEq] at hm
    subst hm
    obtain ⟨rfl, hb⟩ := makeClosed_ok _ _ hc
    refine ⟨rfl, rfl, rfl, ?_⟩
    obtain ⟨a, b, ha, h1, h2, h3⟩ := loadEqdsk_affine f.data
    have h3 := h3 hne
    have e1 : f.bdry.map (spline (loadEqdsk f.data).psi) =
        (f.bdry.map (spline f.data.psi)).map (fun v => a * v + b) := by
      rw [h1, List.map_map]
      exact List.map_congr_left fun p _ => hs _ rfl a b p
    have hmem := npMin_mem (f.bdry.map (spline (loadEqdsk f.data).psi)) (by simpa using hb)
    have hle := npMin_le (f.bdry.map (spline (loadEqdsk f.data).psi))
    rw [e1] at hmem hle
    obtain ⟨B, hB, hBe⟩ := List.mem_map.1 hmem
    refine ⟨B, ⟨hB, fun v hv => ?_⟩, ?_⟩
    · have h4 := hle (a * v + b) (List.mem_map.2 ⟨v, hv, rfl⟩)
      rw [← hBe] at h4
      have h5 : a * (B - v) ≤ 0 := by linarith
      have e2 : 0 < a ^ 2 := by positivity
      have h6 : 0 ≤ (a * (f.data.psibdry - f.data.psimag)) * (a * (B - v)) :=
        mul_nonneg_of_nonpos_of_nonpos h3.le h5
      have h7 : a ^ 2 * ((f.data.psibdry - f.data.psimag) * (B - v)) =
        (a * (f.data.psibdry - f.data.psimag)) * (a * (B - v)) := by ring
      rw [← h7] at h6
      exact nonneg_of_mul_nonneg_right h6 e2
    · simp only [fromEqdskPsi]
      rw [e1, ← hBe, h2, h1, List.map_map]
      exact List.map_congr_left fun v _ => normalisePsi_affine _ _ _ _ _ ha _

/-- C72.  With the LINEAR convention, a file whose axis flux is the extreme of the grid, and boundary
points all on the boundary side of the axis: the normalised flux of the map at any place is the
interpolated flux, scaled; on the LCFS it is at most 1, and 1 at some boundary point. -/
theorem C72_lcfs (spline : List ℝ → ℝ × ℝ → ℝ) (f : EqdskFile)
    (hs : AffineInterpolation f.data.psi.length spline) (hne : f.data.psimag ≠ f.data.psibdry)
    (hgrid : ∀ v ∈ f.data.psi, 0 ≤ (f.data.psibdry - f.data.psimag) * (v - f.data.psimag))
    (hside : ∀ p ∈ f.bdry, 0 < (f.data.psibdry - f.data.psimag) * (spline f.data.psi p - f.data.psimag))
    (m : EqdskMap) (hm : (fromEqdsk spline f .linear).2 = .ok m) :
    ∃ B, B ≠ f.data.psimag ∧
      (∀ x z, m.value spline x z = (spline f.data.psi (x, z) - f.data.psimag) / (B - f.data.psimag)) ∧
      (∀ p ∈ m.lcfs, 0 < m.value spline p.1 p.2 ∧ m.value spline p.1 p.2 ≤ 1) ∧
      ∃ p ∈ m.lcfs, m.value spline p.1 p.2 = 1 := by
  obtain ⟨hl, -, -, B, ⟨hB, hBo⟩, hpn⟩ := C72_boundary spline f hs hne .linear m hm
  obtain ⟨pB, hpB, hpBe⟩ := List.mem_map.1 hB
  have hBs := hside pB hpB
  rw [hpBe] at hBs
  have hD : f.data.psibdry - f.data.psimag ≠ 0 := sub_ne_zero.2 (Ne.symm hne)
  have hBne : B - f.data.psimag ≠ 0 := by
    intro h; rw [h, mul_zero] at hBs; exact lt_irrefl _ hBs
  have hval : ∀ x z, m.value spline x z =
      (spline f.data.psi (x, z) - f.data.psimag) / (B - f.data.psimag) := by
    intro x z
    have e1 : m.psiNorm = f.data.psi.map
        (fun v => 1 / (B - f.data.psimag) * v + -f.data.psimag / (B - f.data.psimag)) := by
      rw [hpn]
      refine List.map_congr_left fun v hv => ?_
      unfold normalisePsi normaliseLinear
      have e2 : (f.data.psimag - v) / (f.data.psimag - B) =
          (v - f.data.psimag) / (B - f.data.psimag) := by
        rw [← neg_sub v, ← neg_sub B, neg_div_neg_eq]
      have e3 : 0 ≤ (v - f.data.psimag) / (B - f.data.psimag) := by
        have h1 := mul_nonneg (hgrid v hv) hBs.le
        have h2 : 0 < (f.data.psibdry - f.data.psimag) ^ 2 * (B - f.data.psimag) ^ 2 := by positivity
        have e4 : (v - f.data.psimag) / (B - f.data.psimag) =
            ((f.data.psibdry - f.data.psimag) * (v - f.data.psimag) *
              ((f.data.psibdry - f.data.psimag) * (B - f.data.psimag))) /
            ((f.data.psibdry - f.data.psimag) ^ 2 * (B - f.data.psimag) ^ 2) := by
          field_simp
        rw [e4]; positivity
      simp only
      rw [e2, max_eq_left e3]
      field_simp
      ring
    unfold EqdskMap.value
    rw [e1, hs _ rfl]
    field_simp
    ring
  refine ⟨B, sub_ne_zero.1 hBne, hval, ?_, ?_⟩
  · intro p hp
    rw [hl] at hp
    have h1 := hside p hp
    have h2 := hBo (spline f.data.psi p) (List.mem_map.2 ⟨p, hp, rfl⟩)
    rw [hval, show (p.1, p.2) = p from rfl]
    rcases lt_or_gt_of_ne hD with hneg | hpos
    · have hb : B - f.data.psimag < 0 := by
        by_contra hcon; push Not at hcon; nlinarith
      have hv : spline f.data.psi p - f.data.psimag < 0 := by
        by_contra hcon; push Not at hcon; nlinarith
      have hBv : B - spline f.data.psi p ≤ 0 := by
        by_contra hcon; push Not at hcon; nlinarith
      exact ⟨div_pos_of_neg_of_neg hv hb, (div_le_one_of_neg hb).2 (by linarith)⟩
    · have hb : 0 < B - f.data.psimag := by
        by_contra hcon; push Not at hcon; nlinarith
      have hv : 0 < spline f.data.psi p - f.data.psimag := by
        by_contra hcon; push Not at hcon; nlinarith
      have hBv : 0 ≤ B - spline f.data.psi p := by
        by_contra hcon; push Not at hcon; nlinarith
      exact ⟨div_pos hv hb, (div_le_one hb).2 (by linarith)⟩
  · refine ⟨pB, by rw [hl]; exact hpB, ?_⟩
    rw [hval, show (pB.1, pB.2) = pB from rfl, hpBe, div_self hBne]

/-- C72.  The call changes the object it is given, but building again from the same object, with the
same or with the other convention, gives what a fresh object gives. -/
theorem C72_reuse (spline : List ℝ → ℝ × ℝ → ℝ) (f : EqdskFile) (conv conv' : FluxConvention) :
    fromEqdsk spline (fromEqdsk spline f conv).1 conv' = fromEqdsk spline f conv' := by
  have h : loadEqdsk (loadEqdsk f.data) = loadEqdsk f.data := (C44_idempotent f.data).1
  simp only [fromEqdsk, EqdskFile.loaded, fromEqdskPsi, h]

/-- C72.  What the call leaves in the object it was given: an object whose flux decreases from the axis is
untouched; one whose flux increases has its flux replaced by `psi(axis) - psi`, so that the flux on the
axis is 0 and the flux decreases from it.  Boundary and axis are untouched. -/
theorem C72_object (spline : List ℝ → ℝ × ℝ → ℝ) (f : EqdskFile) (conv : FluxConvention) :
    (fromEqdsk spline f conv).1.bdry = f.bdry ∧ (fromEqdsk spline f conv).1.xmag = f.xmag ∧
    (fromEqdsk spline f conv).1.zmag = f.zmag ∧
    (f.data.psibdry ≤ f.data.psimag → (fromEqdsk spline f conv).1 = f) ∧
    (f.data.psimag < f.data.psibdry →
      (fromEqdsk spline f conv).1.data.psi = f.data.psi.map (fun v => f.data.psimag - v) ∧
      (fromEqdsk spline f conv).1.data.psimag = 0 ∧
      (fromEqdsk spline f conv).1.data.psibdry = f.data.psimag - f.data.psibdry) := by
  refine ⟨rfl, rfl, rfl, fun h => ?_, fun h => ?_⟩
  · simp only [fromEqdsk, EqdskFile.loaded, (C44_idempotent f.data).2 h]
  · simp only [fromEqdsk, EqdskFile.loaded, loadEqdsk, if_pos h, and_self]

/-- C72.  The SQRT map of a file is the entry-wise square root of its LINEAR map. -/
theorem C72_conventions (spline : List ℝ → ℝ × ℝ → ℝ) (f : EqdskFile) (m : EqdskMap)
    (hm : (fromEqdsk spline f .linear).2 = .ok m) :
    (fromEqdsk spline f .sqrt).2 = .ok { m with psiNorm := m.psiNorm.map Real.sqrt } := by
  simp only [fromEqdsk] at hm ⊢
  cases hc : makeClosed f.bdry with
  | error e => rw [hc] at hm; simp [Bind.bind, Except.bind] at hm
  | ok l =>
    rw [hc] at hm
    simp only [Bind.bind, Except.bind, Except.ok.injEq] at hm ⊢
    subst hm
    simp only [fromEqdskPsi, List.map_map, normalisePsi]
    rfl

/-- C72.  A file whose boundary does not close is rejected, with `FluxSurfaceError`; an empty boundary
with `IndexError`; nothing else is. -/
theorem C72_errors (spline : List ℝ → ℝ × ℝ → ℝ) (f : EqdskFile) (conv : FluxConvention) :
    (f.bdry = [] → (fromEqdsk spline f conv).2 = .error .indexError) ∧
    ∀ a b, f.bdry.head? = some a → f.bdry.getLast? = some b →
      ((|a.1 - b.1| ≤ 1 / 10 ^ 12 ∧ |a.2 - b.2| ≤ 1 / 10 ^ 12) →
        ∃ m, (fromEqdsk spline f conv).2 = .ok m) ∧
      (¬ (|a.1 - b.1| ≤ 1 / 10 ^ 12 ∧ |a.2 - b.2| ≤ 1 / 10 ^ 12) →
        (fromEqdsk spline f conv).2 = .error .fluxSurfaceError) := by
  constructor
  · intro h
    simp only [fromEqdsk, h]
    rfl
  · intro a b ha hb
    simp only [fromEqdsk, C50_closed f.bdry a b ha hb]
    constructor
    · intro h
      rw [if_pos h]
      exact ⟨_, rfl⟩
    · intro h
      rw [if_neg h]
      rfl

/-- Interpolation between two grid values along the radius. -/
noncomputable def twoPoint (data : List ℝ) (p : ℝ × ℝ) : ℝ :=
  data.getD 0 0 * (1 - p.1) + data.getD 1 0 * p.1

theorem twoPoint_affine : AffineInterpolation 2 twoPoint := by
  intro data h c d p
  match data, h with
  | [a, b], _ => simp only [twoPoint, List.map_cons, List.map_nil, List.getD_cons_zero,
      List.getD_cons_succ]; ring

/-- Witness for `C72_units`, `C72_boundary` and `C72_lcfs`: flux 3 on the axis falling to -5, boundary at
two places, a header boundary value that is neither; the outermost value on the boundary is -1. -/
noncomputable def sampleFile : EqdskFile :=
  { data := ⟨[3, -5], 3, 0⟩
    bdry := [(1 / 4, 0), (1 / 2, 1), (1 / 4, 0)]
    xmag := 0
    zmag := 0 }

example : AffineInterpolation sampleFile.data.psi.length twoPoint ∧
    sampleFile.data.psimag ≠ sampleFile.data.psibdry ∧
    (∀ v ∈ sampleFile.data.psi,
      0 ≤ (sampleFile.data.psibdry - sampleFile.data.psimag) * (v - sampleFile.data.psimag)) ∧
    (∀ p ∈ sampleFile.bdry, 0 < (sampleFile.data.psibdry - sampleFile.data.psimag) *
      (twoPoint sampleFile.data.psi p - sampleFile.data.psimag)) ∧
    (∃ m, (fromEqdsk twoPoint sampleFile .linear).2 = .ok m) ∧
    OutermostValue 3 0 (sampleFile.bdry.map (twoPoint sampleFile.data.psi)) (-1) := by
  refine ⟨twoPoint_affine, by norm_num [sampleFile], ?_, ?_, ?_, ?_⟩
  · simp [sampleFile]; norm_num
  · simp [sampleFile, twoPoint]; norm_num
  · exact ((C72_errors twoPoint sampleFile .linear).2 _ _ rfl rfl).1 (by norm_num)
  · simp [sampleFile, twoPoint, OutermostValue]; norm_num

end TNS
