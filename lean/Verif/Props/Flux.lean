import Verif.Model.Flux
import Verif.Lemmas.MapM
import Verif.Props.Profile
import Mathlib.Tactic.Linarith
import Mathlib.Tactic.FieldSimp
/-
C39-C44, C47-C50: flux surfaces and flux maps.
-/

set_option autoImplicit false
set_option linter.unusedSectionVars false

namespace TNS

section ordered
variable {K : Type} [Field K] [LinearOrder K] [IsStrictOrderedRing K]

/-! ## C50 -/

/-- C50.  A closed surface is constructed, with the given coordinates, exactly when the first and
last point agree within 1e-12 (inclusive) in both coordinates; otherwise `FluxSurfaceError`. -/
theorem C50_closed (pts : List (K × K)) (a b : K × K) (ha : pts.head? = some a)
    (hb : pts.getLast? = some b) :
    makeClosed pts = if |a.1 - b.1| ≤ 1 / 10 ^ 12 ∧ |a.2 - b.2| ≤ 1 / 10 ^ 12 then .ok pts
      else .error .fluxSurfaceError := by
  simp [makeClosed, isClosed, ha, hb, bind, Except.bind, closedTol]

/-- C50.  The only other outcome is an empty array (`IndexError`). -/
theorem C50_empty : makeClosed ([] : List (K × K)) = .error .indexError := rfl

example : makeClosed [((1 : ℚ), (0 : ℚ)), (2, 1), (1, 0)] = .ok [(1, 0), (2, 1), (1, 0)] := by
  rw [C50_closed _ (1, 0) (1, 0) rfl rfl]; norm_num
example : makeClosed [((1 : ℚ), (0 : ℚ)), (2, 1), (1, 1/10^11)] = .error .fluxSurfaceError := by
  rw [C50_closed _ (1, 0) (1, 1/10^11) rfl rfl]; norm_num [abs_of_pos]

/-! ## C39 -/

/-- C39.  Exactly which parameters are accepted. -/
theorem C39_accepted (r0 z0 aspect kappa delta shift sq : K) :
    (∃ l, LCFSInfo.make r0 z0 aspect kappa delta shift sq = .ok l) ↔
      0 < r0 ∧ 1 < aspect ∧ 1 ≤ kappa ∧ |delta| ≤ 1 ∧ |shift| < r0 / aspect := by
  unfold LCFSInfo.make
  simp only [abs_le (a := delta)]
  split_ifs with h1 h2 h3 h4 h5
  · simp; intro h; exact absurd h (not_lt.2 h1)
  · simp; intro _ h; exact absurd h (not_lt.2 h2)
  · simp; intro _ _ h; exact absurd h (not_le.2 h3)
  · simp only [reduceCtorEq, exists_false, false_iff, not_and]
    intro _ _ _ _ h; exact absurd h (not_lt.2 h5)
  · rw [not_le] at h1 h2
    rw [not_lt] at h3
    rw [ge_iff_le, not_le] at h5
    exact ⟨fun _ => ⟨h1, h2, h3, h4, h5⟩, fun _ => ⟨_, rfl⟩⟩
  · simp only [reduceCtorEq, exists_false, false_iff, not_and]
    intro _ _ _ h; exact absurd h h4

/-- C39.  Rejection is always by `FluxSurfaceError`. -/
theorem C39_error (r0 z0 aspect kappa delta shift sq : K) (e : Err)
    (h : LCFSInfo.make r0 z0 aspect kappa delta shift sq = .error e) : e = .fluxSurfaceError := by
  unfold LCFSInfo.make at h
  simp only at h
  split_ifs at h <;> simpa using h.symm

/-- C39.  The stored values: parameters as given, minor radius between 0 and the major radius, shift
the absolute value of the given one and below the minor radius. -/
theorem C39_stored (r0 z0 aspect kappa delta shift sq : K) (l : LCFSInfo K)
    (h : LCFSInfo.make r0 z0 aspect kappa delta shift sq = .ok l) :
    (l.r0 = r0 ∧ l.z0 = z0 ∧ l.aspect = aspect ∧ l.kappa = kappa ∧ l.delta = delta ∧
      l.squareness = sq ∧ l.shift = |shift|) ∧
    l.minor = r0 / aspect ∧ 0 < l.minor ∧ l.minor < l.r0 ∧ 0 ≤ l.shift ∧ l.shift < l.minor := by
  obtain ⟨h1, h2, h3, h4, h5⟩ := (C39_accepted r0 z0 aspect kappa delta shift sq).1 ⟨l, h⟩
  rw [abs_le] at h4
  unfold LCFSInfo.make at h
  rw [if_neg (not_le.2 h1), if_neg (not_le.2 h2), if_neg (not_lt.2 h3), if_neg (not_not.2 h4)] at h
  simp only [ge_iff_le] at h
  rw [if_neg (not_le.2 h5)] at h
  obtain rfl := (by simpa using h : _ = l)
  have h2' : 0 < aspect := zero_lt_one.trans h2
  exact ⟨⟨rfl, rfl, rfl, rfl, rfl, rfl, rfl⟩, rfl, div_pos h1 h2', div_lt_self h1 h2, abs_nonneg _,
    h5⟩

/-- DEMO-like parameters are accepted. -/
example : ∃ l, LCFSInfo.make (9 : ℚ) 0 3 (17/10) (-1/3) (-1/2) 0 = .ok l ∧ l.shift = 1/2 := by
  obtain ⟨l, hl⟩ := (C39_accepted (9 : ℚ) 0 3 (17/10) (-1/3) (-1/2) 0).2 (by
    norm_num [abs_of_neg])
  exact ⟨l, hl, by rw [(C39_stored _ _ _ _ _ _ _ l hl).1.2.2.2.2.2.2]; norm_num [abs_of_neg]⟩

/-! ## C43 (linear part) -/

/-- C43.  0 on axis, 1 on the boundary, never negative. -/
theorem C43_linear (axis boundary : K) (h : axis ≠ boundary) :
    normaliseLinear axis axis boundary = 0 ∧ normaliseLinear boundary axis boundary = 1 ∧
    ∀ psi, 0 ≤ normaliseLinear psi axis boundary := by
  have h' : axis - boundary ≠ 0 := sub_ne_zero.2 h
  exact ⟨by simp [normaliseLinear], by simp [normaliseLinear, div_self h'],
    fun psi => le_max_right _ _⟩

/-- C43.  Any affine change of the flux (offset and non-zero factor, of either sign) leaves the
normalised flux unchanged. -/
theorem C43_affine (psi axis boundary c d : K) (hc : c ≠ 0) :
    normaliseLinear (c * psi + d) (c * axis + d) (c * boundary + d) =
      normaliseLinear psi axis boundary := by
  unfold normaliseLinear
  have : (c * axis + d - (c * psi + d)) / (c * axis + d - (c * boundary + d)) =
      (axis - psi) / (axis - boundary) := by
    rw [show c * axis + d - (c * psi + d) = c * (axis - psi) by ring,
      show c * axis + d - (c * boundary + d) = c * (axis - boundary) by ring,
      mul_div_mul_left _ _ hc]
  rw [this]

/-- C43.  Going from the axis to the boundary (in whichever direction the flux runs) the normalised
flux increases; strictly so on the boundary side of the axis. -/
theorem C43_monotone (axis boundary s t : K) (h : axis ≠ boundary) (hst : s ≤ t) :
    normaliseLinear (axis + s * (boundary - axis)) axis boundary ≤
      normaliseLinear (axis + t * (boundary - axis)) axis boundary ∧
    (0 ≤ s → normaliseLinear (axis + s * (boundary - axis)) axis boundary = s) := by
  have e : ∀ u : K, (axis - (axis + u * (boundary - axis))) / (axis - boundary) = u := by
    intro u
    have : axis - boundary ≠ 0 := sub_ne_zero.2 h
    field_simp
    ring
  unfold normaliseLinear
  rw [e, e]
  exact ⟨max_le_max_right _ hst, fun hs => max_eq_left hs⟩

example : normaliseLinear (3 : ℚ) 5 1 = 1/2 ∧ normaliseLinear (7 : ℚ) 5 1 = 0 := by decide +kernel

/-! ## C44 -/

/-- C44.  After loading, the axis flux exceeds the boundary flux whenever they differed; equal ones
stay equal. -/
theorem C44_order (eq : Eqdsk K) :
    (eq.psimag ≠ eq.psibdry → (loadEqdsk eq).psibdry < (loadEqdsk eq).psimag) ∧
    (eq.psimag = eq.psibdry → loadEqdsk eq = eq) := by
  unfold loadEqdsk
  refine ⟨fun h => ?_, fun h => ?_⟩
  · split_ifs with h1
    · simp only; linarith
    · exact lt_of_le_of_ne (not_lt.1 h1) (Ne.symm h)
  · rw [if_neg (by rw [h]; exact lt_irrefl _)]

/-- C44.  Loading the result again changes nothing; data already in the convention are not touched. -/
theorem C44_idempotent (eq : Eqdsk K) :
    loadEqdsk (loadEqdsk eq) = loadEqdsk eq ∧ (eq.psibdry ≤ eq.psimag → loadEqdsk eq = eq) := by
  have key : ∀ e : Eqdsk K, e.psibdry ≤ e.psimag → loadEqdsk e = e :=
    fun e h => if_neg (not_lt.2 h)
  refine ⟨key _ ?_, key eq⟩
  by_cases h : eq.psimag = eq.psibdry
  · rw [(C44_order eq).2 h, h]
  · exact ((C44_order eq).1 h).le

/-- C44.  The normalised flux of the loaded data, point by point, is that of the original data. -/
theorem C44_normalised (eq : Eqdsk K) :
    (loadEqdsk eq).psi.map (fun p =>
        normaliseLinear p (loadEqdsk eq).psimag (loadEqdsk eq).psibdry) =
      eq.psi.map (fun p => normaliseLinear p eq.psimag eq.psibdry) := by
  by_cases h : eq.psimag < eq.psibdry
  · have e : loadEqdsk eq = ⟨eq.psi.map (fun p => eq.psimag - p), 0, eq.psimag - eq.psibdry⟩ := by
      unfold loadEqdsk; rw [if_pos h]
    rw [e]
    simp only [List.map_map]
    refine List.map_congr_left fun p _ => ?_
    have := C43_affine p eq.psimag eq.psibdry (-1) eq.psimag (by norm_num)
    rw [← this]
    simp only [Function.comp]
    congr 1 <;> ring
  · rw [show loadEqdsk eq = eq from if_neg h]

example : loadEqdsk (⟨[1, 2, 3], 1, 3⟩ : Eqdsk ℚ) = ⟨[0, -1, -2], 0, -2⟩ := by
  norm_num [loadEqdsk]

/-! ## C47 -/

theorem argmin_lt (l : List K) (h : l ≠ []) : argmin l < l.length := by
  induction l with
  | nil => exact absurd rfl h
  | cons a l ih =>
    rw [argmin]
    split_ifs with h1
    · simp
    · have : l ≠ [] := by rintro rfl; simp at h1
      simpa using ih this

/-- The index found is that of a minimum, and everything before it is strictly larger. -/
theorem argmin_spec (l : List K) (h : l ≠ []) :
    (∀ b ∈ l, l[argmin l]'(argmin_lt l h) ≤ b) ∧
    ∀ j (hj : j < argmin l), l[argmin l]'(argmin_lt l h) < l[j]'(hj.trans (argmin_lt l h)) := by
  induction l with
  | nil => exact absurd rfl h
  | cons a l ih =>
    by_cases h1 : l.all (fun b => decide (a ≤ b)) = true
    · have e : argmin (a :: l) = 0 := by rw [argmin, if_pos h1]
      simp only [e]
      refine ⟨fun b hb => ?_, fun j hj => absurd hj (by omega)⟩
      rcases List.mem_cons.1 hb with rfl | hb
      · exact le_refl _
      · simpa using List.all_eq_true.1 h1 b hb
    · have hl : l ≠ [] := by rintro rfl; simp at h1
      have e : argmin (a :: l) = argmin l + 1 := by rw [argmin, if_neg h1]
      obtain ⟨i1, i2⟩ := ih hl
      simp only [e, List.getElem_cons_succ]
      have hlt : l[argmin l]'(argmin_lt l hl) < a := by
        have : ∃ b ∈ l, b < a := by
          by_contra hc
          push Not at hc
          exact h1 (List.all_eq_true.2 fun b hb => by simpa using hc b hb)
        obtain ⟨b, hb, hba⟩ := this
        exact (i1 b hb).trans_lt hba
      refine ⟨fun b hb => ?_, fun j hj => ?_⟩
      · rcases List.mem_cons.1 hb with rfl | hb
        · exact hlt.le
        · exact i1 b hb
      · cases j with
        | zero => exact hlt
        | succ j => exact i2 j (by omega)

/-- Squared distance from the O-point to the mean of the points of a contour. -/
def meanDistSq (o : FluxPoint K) (g : List (K × K)) : K :=
  ((g.map Prod.fst).sum / g.length - o.x) ^ 2 + ((g.map Prod.snd).sum / g.length - o.z) ^ 2

/-- C47.  `FluxSurfaceError` exactly when there is no contour; otherwise the first of the contours
whose mean point is closest to the O-point. -/
theorem C47_selection (contours : List (List (K × K))) (o : FluxPoint K) :
    (findFluxSurf contours o = .error .fluxSurfaceError ↔ contours = []) ∧
    (contours ≠ [] → ∃ l g r, contours = l ++ g :: r ∧ findFluxSurf contours o = .ok g ∧
      (∀ h ∈ contours, meanDistSq o g ≤ meanDistSq o h) ∧
      (∀ h ∈ l, meanDistSq o g < meanDistSq o h)) := by
  have hce : ∀ g, contourErr o g = meanDistSq o g := by
    intro g; simp [contourErr, meanDistSq, npMean]
  have key : contours ≠ [] → ∃ l g r, contours = l ++ g :: r ∧ findFluxSurf contours o = .ok g ∧
      (∀ h ∈ contours, meanDistSq o g ≤ meanDistSq o h) ∧
      (∀ h ∈ l, meanDistSq o g < meanDistSq o h) := by
    intro hne
    have hne' : contours.map (contourErr o) ≠ [] := by simpa using hne
    have hlt := argmin_lt _ hne'
    obtain ⟨s1, s2⟩ := argmin_spec _ hne'
    set i := argmin (contours.map (contourErr o)) with hi
    have hlt' : i < contours.length := by simpa using hlt
    simp only [List.getElem_map, hce] at s1 s2
    refine ⟨contours.take i, contours[i], contours.drop (i + 1), ?_, ?_, ?_, ?_⟩
    · rw [← List.drop_eq_getElem_cons, List.take_append_drop]
    · unfold findFluxSurf
      rw [if_neg hne, ← hi, List.getElem?_eq_getElem hlt']
    · intro h hh
      exact s1 _ (List.mem_map.2 ⟨h, hh, hce h⟩)
    · intro h hh
      obtain ⟨j, hj, rfl⟩ := List.mem_iff_getElem.1 hh
      have hj' : j < i := by simp at hj; omega
      simpa using s2 j hj'
  refine ⟨⟨fun h => ?_, fun h => by simp [findFluxSurf, h]⟩, key⟩
  by_contra hne
  obtain ⟨l, g, r, -, h2, -⟩ := key hne
  rw [h] at h2; simp at h2

/-- Two contours, the second closer to the O-point. -/
example : findFluxSurf [[((0:ℚ), (0:ℚ)), (2, 0)], [(3, 1), (5, -1)], [(4, 0)]] ⟨4, 0, 0⟩ =
    .ok [(3, 1), (5, -1)] := by
  decide +kernel

end ordered

noncomputable section

/-! ## C43 (SQRT convention) -/

/-- C43.  The SQRT convention is the square root of the LINEAR one; on axis 0, on the boundary 1,
never negative, unchanged by affine changes of the flux, and increasing from axis to boundary for both
conventions. -/
theorem C43_conventions (psi axis boundary : ℝ) (conv : FluxConvention) (h : axis ≠ boundary) :
    normalisePsi psi axis boundary .sqrt = Real.sqrt (normalisePsi psi axis boundary .linear) ∧
    normalisePsi psi axis boundary .sqrt ^ 2 = normalisePsi psi axis boundary .linear ∧
    normalisePsi axis axis boundary conv = 0 ∧ normalisePsi boundary axis boundary conv = 1 ∧
    0 ≤ normalisePsi psi axis boundary conv ∧
    (∀ c d : ℝ, c ≠ 0 → normalisePsi (c * psi + d) (c * axis + d) (c * boundary + d) conv =
      normalisePsi psi axis boundary conv) ∧
    (∀ s t : ℝ, s ≤ t → normalisePsi (axis + s * (boundary - axis)) axis boundary conv ≤
      normalisePsi (axis + t * (boundary - axis)) axis boundary conv) := by
  obtain ⟨l1, l2, l3⟩ := C43_linear axis boundary h
  refine ⟨rfl, Real.sq_sqrt (l3 psi), ?_, ?_, ?_, ?_, ?_⟩
  · cases conv <;> simp [normalisePsi, l1]
  · cases conv <;> simp [normalisePsi, l2]
  · cases conv
    · exact l3 psi
    · exact Real.sqrt_nonneg _
  · intro c d hc
    cases conv <;> simp [normalisePsi, C43_affine _ _ _ _ _ hc]
  · intro s t hst
    have := (C43_monotone axis boundary s t h hst).1
    cases conv
    · exact this
    · exact Real.sqrt_le_sqrt this

example : normalisePsi 3 5 1 .sqrt = Real.sqrt (1 / 2) := by
  simp only [normalisePsi, normaliseLinear]; norm_num

/-! ## C44: flux map from EQDSK -/

/-- C44.  In a flux map built from an EQDSK every normalised flux is non-negative, with exactly one
entry per grid point. -/
theorem C44_map (eq : Eqdsk ℝ) (lcfsPsi : Eqdsk ℝ → List ℝ) (conv : FluxConvention) :
    (fromEqdskPsi eq lcfsPsi conv).length = eq.psi.length ∧
    ∀ p ∈ fromEqdskPsi eq lcfsPsi conv, 0 ≤ p := by
  refine ⟨?_, ?_⟩
  · unfold fromEqdskPsi loadEqdsk
    split_ifs <;> simp
  · intro p hp
    unfold fromEqdskPsi at hp
    simp only [List.mem_map] at hp
    obtain ⟨q, -, rfl⟩ := hp
    cases conv
    · exact le_max_right _ _
    · exact Real.sqrt_nonneg _

/-! ## C40, C41, C42 -/

theorem angles_length (n : ℕ) : (angles n).length = n := by
  unfold angles; split_ifs with h <;> simp [h]

theorem angles_head (n : ℕ) (hn : 1 ≤ n) : (angles n).head? = some 0 := by
  unfold angles
  split_ifs with h
  · rfl
  · obtain ⟨m, rfl⟩ : ∃ m, n = m + 1 := ⟨n - 1, by omega⟩
    rw [List.range_succ_eq_map]; simp

theorem angles_getLast (n : ℕ) (hn : 2 ≤ n) : (angles n).getLast? = some (2 * Real.pi) := by
  unfold angles
  rw [if_neg (by omega)]
  obtain ⟨m, rfl⟩ : ∃ m, n = m + 1 := ⟨n - 1, by omega⟩
  rw [List.range_succ]
  have : (m : ℝ) ≠ 0 := by
    have : m ≠ 0 := by omega
    exact_mod_cast this
  simp [div_self this]

theorem point_periodic (p : Parameterisation) (l : LCFSInfo ℝ) (psi : ℝ) :
    p.point l psi (2 * Real.pi) = p.point l psi 0 := by
  have h2 : Real.sin (2 * (2 * Real.pi)) = 0 := by
    rw [Real.sin_two_mul]; simp [Real.sin_two_pi]
  cases p
  · simp [Parameterisation.point, fausserPoint]
  · simp [Parameterisation.point, sauterPoint, h2]

/-- C40, C42.  Every surface of either parameterisation, for any parameters and any flux, closes: the
constructor succeeds with the `n` computed points, and first and last point coincide. -/
theorem C42_closed (p : Parameterisation) (l : LCFSInfo ℝ) (psi : ℝ) (n : ℕ) (hn : 1 ≤ n) :
    ∃ s, fluxSurface p l psi n = .ok s ∧ s.length = n ∧
      s.head? = some (p.point l psi 0) ∧ s.getLast? = s.head? := by
  have hh : ((angles n).map (p.point l psi)).head? = some (p.point l psi 0) := by
    rw [List.head?_map, angles_head n hn]; rfl
  have hl : ((angles n).map (p.point l psi)).getLast? = some (p.point l psi 0) := by
    rcases Nat.lt_or_ge n 2 with h | h
    · obtain rfl : n = 1 := by omega
      rfl
    · rw [List.getLast?_map, angles_getLast n h]
      simp [point_periodic]
  refine ⟨_, ?_, ?_, hh, by rw [hl, hh]⟩
  · unfold fluxSurface
    rw [C50_closed _ _ _ hh hl, if_pos (by simp)]
  · simp [angles_length]

/-- No points requested: `IndexError`. -/
theorem C42_no_points (p : Parameterisation) (l : LCFSInfo ℝ) (psi : ℝ) :
    fluxSurface p l psi 0 = .error .indexError := rfl

/-- The surface is the list of its points. -/
theorem fluxSurface_eq (p : Parameterisation) (l : LCFSInfo ℝ) (psi : ℝ) (n : ℕ)
    (s : List (ℝ × ℝ)) (h : fluxSurface p l psi n = .ok s) : s = (angles n).map (p.point l psi) := by
  unfold fluxSurface makeClosed at h
  cases hc : isClosed ((angles n).map (p.point l psi)) closedTol with
  | error e => rw [hc] at h; simp [bind, Except.bind] at h
  | ok b => rw [hc] at h; cases b <;> simp [bind, Except.bind] at h; exact h.symm

/-- C40.  Every point of a Fausser surface has positive radius and lies within the box
`r_0 ± ψ a + shift (1-ψ²)`, `z_0 ± κ ψ a`. -/
theorem C40_box (r0 z0 aspect kappa delta shift sq : ℝ) (l : LCFSInfo ℝ)
    (hl : LCFSInfo.make r0 z0 aspect kappa delta shift sq = .ok l) (psi : ℝ) (h0 : 0 ≤ psi)
    (h1 : psi ≤ 1) (n : ℕ) (s : List (ℝ × ℝ)) (hs : fluxSurface .fausser l psi n = .ok s) :
    ∀ p ∈ s, 0 < p.1 ∧
      r0 - psi * (r0 / aspect) + |shift| * (1 - psi ^ 2) ≤ p.1 ∧
      p.1 ≤ r0 + psi * (r0 / aspect) + |shift| * (1 - psi ^ 2) ∧
      (r0 - r0 / aspect ≤ p.1 ∧ p.1 ≤ r0 + r0 / aspect + |shift|) ∧
      |p.2 - z0| ≤ kappa * (psi * (r0 / aspect)) ∧ |p.2 - z0| ≤ kappa * (r0 / aspect) := by
  obtain ⟨⟨e1, e2, e3, e4, e5, -, e7⟩, -, m1, m2, -, -⟩ := C39_stored _ _ _ _ _ _ _ l hl
  obtain ⟨a1, a2, a3, a4, a5⟩ := (C39_accepted r0 z0 aspect kappa delta shift sq).1 ⟨l, hl⟩
  have hmin : l.minor = r0 / aspect := (C39_stored _ _ _ _ _ _ _ l hl).2.1
  rw [hmin] at m1 m2
  rw [e1] at m2
  intro p hp
  rw [fluxSurface_eq _ _ _ _ _ hs] at hp
  obtain ⟨alpha, -, rfl⟩ := List.mem_map.1 hp
  have ep : Parameterisation.fausser.point l psi alpha = fausserPoint l psi alpha := rfl
  rw [ep]
  simp only [fausserPoint, e1, e2, e3, e4, e5, e7, abs_abs]
  set c := Real.cos (alpha + delta * Real.sin alpha)
  have hc1 : c ≤ 1 := Real.cos_le_one _
  have hc2 : -1 ≤ c := Real.neg_one_le_cos _
  have hA : psi * r0 / aspect = psi * (r0 / aspect) := by ring
  rw [hA]
  set A := r0 / aspect
  have hpA : 0 ≤ psi * A := mul_nonneg h0 m1.le
  have hpA1 : psi * A ≤ A := mul_le_of_le_one_left m1.le h1
  have b1 : psi * A * c ≤ psi * A := mul_le_of_le_one_right hpA hc1
  have b2 : -(psi * A) ≤ psi * A * c := by nlinarith
  have hsq : 0 ≤ 1 - psi ^ 2 := by nlinarith
  have hsq1 : 1 - psi ^ 2 ≤ 1 := by nlinarith
  have b3 : 0 ≤ |shift| * (1 - psi ^ 2) := mul_nonneg (abs_nonneg _) hsq
  have b4 : |shift| * (1 - psi ^ 2) ≤ |shift| := mul_le_of_le_one_right (abs_nonneg _) hsq1
  have hz : |z0 + psi * A * kappa * Real.sin alpha - z0| ≤ kappa * (psi * A) := by
    rw [add_sub_cancel_left, abs_mul, abs_of_nonneg (mul_nonneg hpA (by linarith))]
    calc psi * A * kappa * |Real.sin alpha| ≤ psi * A * kappa * 1 :=
          mul_le_mul_of_nonneg_left (Real.abs_sin_le_one _) (mul_nonneg hpA (by linarith))
      _ = kappa * (psi * A) := by ring
  refine ⟨by linarith, by linarith, by linarith, ⟨by linarith, by linarith⟩, hz, hz.trans ?_⟩
  exact mul_le_mul_of_nonneg_left hpA1 (by linarith)

/-- C40.  The points come in pairs mirrored at the mid-plane: point `i` and point `n-1-i` have equal
radius and opposite height above `z_0`. -/
theorem C40_symmetric (l : LCFSInfo ℝ) (psi : ℝ) (n : ℕ) (s : List (ℝ × ℝ))
    (hs : fluxSurface .fausser l psi n = .ok s) (i : ℕ) (hi : i < s.length) :
    ∃ hj : s.length - 1 - i < s.length,
      (s[s.length - 1 - i]'hj).1 = (s[i]'hi).1 ∧
      (s[s.length - 1 - i]'hj).2 - l.z0 = -((s[i]'hi).2 - l.z0) := by
  have e := fluxSurface_eq _ _ _ _ _ hs
  subst e
  have hlen : ((angles n).map (Parameterisation.fausser.point l psi)).length = n := by
    simp [angles_length]
  refine ⟨by omega, ?_⟩
  simp only [hlen] at hi ⊢
  simp only [List.getElem_map]
  rcases Nat.lt_or_ge n 2 with h | h
  · obtain rfl : n = 1 := by omega
    obtain rfl : i = 0 := by omega
    have : (angles 1)[0]'(by simp [angles_length]) = 0 := by simp [angles]
    simp [this, Parameterisation.point, fausserPoint]
  have ea : ∀ k (hk : k < n), (angles n)[k]'(by simpa [angles_length] using hk) =
      2 * Real.pi * ((k : ℝ) / ((n : ℝ) - 1)) := by
    intro k hk
    have : n ≠ 1 := by omega
    simp [angles, this]
  rw [ea i hi, ea (n - 1 - i) (by omega)]
  have hn0 : (n : ℝ) - 1 ≠ 0 := by
    have : (2 : ℝ) ≤ n := by exact_mod_cast h
    intro h0; linarith
  have ec : ((n - 1 - i : ℕ) : ℝ) = (n : ℝ) - 1 - i := by
    rw [Nat.sub_sub, Nat.cast_sub (by omega)]; push_cast; ring
  have e2 : 2 * Real.pi * (((n - 1 - i : ℕ) : ℝ) / ((n : ℝ) - 1)) =
      2 * Real.pi - 2 * Real.pi * ((i : ℝ) / ((n : ℝ) - 1)) := by
    rw [ec]; field_simp
  rw [e2]
  set al := 2 * Real.pi * ((i : ℝ) / ((n : ℝ) - 1))
  have hsin : Real.sin (2 * Real.pi - al) = -Real.sin al := Real.sin_two_pi_sub al
  simp only [Parameterisation.point, fausserPoint, hsin]
  have hcos : Real.cos (2 * Real.pi - al + l.delta * -Real.sin al) =
      Real.cos (al + l.delta * Real.sin al) := by
    rw [show 2 * Real.pi - al + l.delta * -Real.sin al =
      2 * Real.pi - (al + l.delta * Real.sin al) by ring, Real.cos_two_pi_sub]
  rw [hcos]
  exact ⟨rfl, by ring⟩

/-- C40.  The surface of zero flux is the O-point of the flux map. -/
theorem C40_axis (r0 z0 aspect kappa delta shift sq : ℝ) (l : LCFSInfo ℝ)
    (hl : LCFSInfo.make r0 z0 aspect kappa delta shift sq = .ok l) (n : ℕ) (s : List (ℝ × ℝ))
    (hs : fluxSurface .fausser l 0 n = .ok s) :
    ∀ p ∈ s, p = ((paramOPoint l).x, (paramOPoint l).z) := by
  intro p hp
  rw [fluxSurface_eq _ _ _ _ _ hs] at hp
  obtain ⟨alpha, -, rfl⟩ := List.mem_map.1 hp
  have : 0 ≤ l.shift := (C39_stored _ _ _ _ _ _ _ l hl).2.2.2.2.1
  simp [Parameterisation.point, fausserPoint, paramOPoint, abs_of_nonneg this]

/-- C40.  The surface of flux 1 is unshifted: its outboard and inboard mid-plane radii are
`r_0 + a` and `r_0 - a`, its first point is the outboard one. -/
theorem C40_lcfs (r0 z0 aspect kappa delta shift sq : ℝ) (l : LCFSInfo ℝ)
    (hl : LCFSInfo.make r0 z0 aspect kappa delta shift sq = .ok l) :
    fausserPoint l 1 0 = (r0 + r0 / aspect, z0) ∧
    fausserPoint l 1 Real.pi = (r0 - r0 / aspect, z0) := by
  obtain ⟨⟨e1, e2, e3, -⟩, -⟩ := C39_stored _ _ _ _ _ _ _ l hl
  refine ⟨?_, ?_⟩ <;> simp [fausserPoint, e1, e2, e3] <;> ring

/-- A concrete accepted plasma (used below): major radius 9, aspect ratio 3. -/
example : ∃ l s, LCFSInfo.make (9 : ℝ) 0 3 1.7 0.3 0.5 0 = .ok l ∧
    fluxSurface .fausser l 0.5 100 = .ok s ∧ s.length = 100 ∧ ∀ p ∈ s, 0 < p.1 := by
  obtain ⟨l, hl⟩ := (C39_accepted (9 : ℝ) 0 3 1.7 0.3 0.5 0).2 (by
    norm_num [abs_of_pos])
  obtain ⟨s, hs, hlen, -⟩ := C42_closed .fausser l 0.5 100 (by norm_num)
  exact ⟨l, s, hl, hs, hlen, fun p hp =>
    (C40_box _ _ _ _ _ _ _ l hl 0.5 (by norm_num) (by norm_num) 100 s hs p hp).1⟩

/-- C41.  The outboard mid-plane radius of the Fausser surfaces increases with flux over the whole
of [0,1] exactly when the Shafranov shift is at most half the minor radius. -/
theorem C41_outboard_iff (r0 z0 aspect kappa delta shift sq : ℝ) (l : LCFSInfo ℝ)
    (hl : LCFSInfo.make r0 z0 aspect kappa delta shift sq = .ok l) :
    (∀ p q : ℝ, 0 ≤ p → p < q → q ≤ 1 →
      (fausserPoint l p 0).1 < (fausserPoint l q 0).1) ↔ |shift| ≤ (r0 / aspect) / 2 := by
  obtain ⟨⟨e1, e2, e3, -, -, -, e7⟩, em, m1, -⟩ := C39_stored _ _ _ _ _ _ _ l hl
  rw [em] at m1
  have ef : ∀ p : ℝ, (fausserPoint l p 0).1 = r0 + p * (r0 / aspect) + |shift| * (1 - p ^ 2) := by
    intro p
    simp [fausserPoint, e1, e3, e7]; ring
  simp only [ef]
  set A := r0 / aspect
  set S := |shift|
  have hS : 0 ≤ S := abs_nonneg shift
  constructor
  · intro h
    by_contra hc
    rw [not_le] at hc
    -- compare p = A/(2S) (the maximum) with q = 1
    have hS0 : 0 < S := by linarith
    have hp1 : A / (2 * S) < 1 := by rw [div_lt_one (by linarith)]; linarith
    have := h (A / (2 * S)) 1 (div_nonneg m1.le (by linarith)) hp1 (le_refl _)
    have e : A / (2 * S) * (2 * S) = A := div_mul_cancel₀ _ (by linarith)
    set u := A / (2 * S)
    have : A = u * (2 * S) := e.symm
    nlinarith [mul_pos hS0 (sub_pos.2 hp1)]
  · intro h p q h0 hpq h1
    nlinarith [mul_nonneg hS (sub_nonneg.2 h1), mul_pos (sub_pos.2 hpq) m1,
      mul_nonneg (sub_nonneg.2 hpq.le) (sub_nonneg.2 h), mul_nonneg hS (sub_nonneg.2 hpq.le),
      mul_nonneg (mul_nonneg hS (sub_nonneg.2 hpq.le)) (sub_nonneg.2 h1),
      mul_pos (sub_pos.2 hpq) (sub_pos.2 hpq),
      mul_nonneg (mul_nonneg (sub_nonneg.2 hpq.le) (sub_nonneg.2 h1)) hS,
      mul_nonneg (mul_nonneg (sub_nonneg.2 hpq.le) (sub_nonneg.2 h1)) m1.le,
      mul_nonneg (mul_nonneg (sub_nonneg.2 hpq.le) (sub_nonneg.2 h1)) (sub_nonneg.2 h),
      mul_nonneg (mul_nonneg (sub_nonneg.2 hpq.le) (sub_nonneg.2 hpq.le)) (sub_nonneg.2 h),
      mul_nonneg (mul_nonneg (sub_nonneg.2 hpq.le) h0) (sub_nonneg.2 h),
      mul_pos (mul_pos (sub_pos.2 hpq) (sub_pos.2 hpq)) m1,
      mul_nonneg (mul_nonneg (sub_nonneg.2 hpq.le) h0) m1.le]

/-- C41.  The inboard mid-plane radius always decreases with flux. -/
theorem C41_inboard (r0 z0 aspect kappa delta shift sq : ℝ) (l : LCFSInfo ℝ)
    (hl : LCFSInfo.make r0 z0 aspect kappa delta shift sq = .ok l) (p q : ℝ) (h0 : 0 ≤ p)
    (hpq : p < q) :
    (fausserPoint l q Real.pi).1 < (fausserPoint l p Real.pi).1 := by
  obtain ⟨⟨e1, e2, e3, -, -, -, e7⟩, em, m1, -⟩ := C39_stored _ _ _ _ _ _ _ l hl
  rw [em] at m1
  have ef : ∀ p : ℝ, (fausserPoint l p Real.pi).1 =
      r0 - p * (r0 / aspect) + |shift| * (1 - p ^ 2) := by
    intro p
    simp [fausserPoint, e1, e3, e7]; ring
  rw [ef, ef]
  have hS : 0 ≤ |shift| := abs_nonneg shift
  nlinarith [mul_pos (sub_pos.2 hpq) m1, mul_nonneg hS (sub_nonneg.2 hpq.le),
    mul_nonneg (mul_nonneg hS (sub_nonneg.2 hpq.le)) h0,
    mul_nonneg (mul_nonneg hS (sub_nonneg.2 hpq.le)) (h0.trans hpq.le)]

/-- C41.  With an accepted shift larger than half the minor radius, surfaces inside the LCFS protrude
beyond its outboard radius. -/
theorem C41_protrudes (r0 z0 aspect kappa delta shift sq : ℝ) (l : LCFSInfo ℝ)
    (hl : LCFSInfo.make r0 z0 aspect kappa delta shift sq = .ok l)
    (h : (r0 / aspect) / 2 < |shift|) :
    ∃ p : ℝ, 0 < p ∧ p < 1 ∧ (fausserPoint l 1 0).1 < (fausserPoint l p 0).1 := by
  obtain ⟨⟨e1, e2, e3, -, -, -, e7⟩, em, m1, -⟩ := C39_stored _ _ _ _ _ _ _ l hl
  rw [em] at m1
  have ef : ∀ p : ℝ, (fausserPoint l p 0).1 = r0 + p * (r0 / aspect) + |shift| * (1 - p ^ 2) := by
    intro p
    simp [fausserPoint, e1, e3, e7]; ring
  simp only [ef]
  set A := r0 / aspect
  set S := |shift|
  have hS0 : 0 < S := by linarith
  have hp1 : A / (2 * S) < 1 := by rw [div_lt_one (by linarith)]; linarith
  refine ⟨A / (2 * S), div_pos m1 (by linarith), hp1, ?_⟩
  have e : A / (2 * S) * (2 * S) = A := div_mul_cancel₀ _ (by linarith)
  set u := A / (2 * S)
  have : A = u * (2 * S) := e.symm
  have hu : 0 < u := by
    by_contra hc
    nlinarith
  nlinarith [mul_pos hS0 (sub_pos.2 hp1), mul_pos (mul_pos hS0 (sub_pos.2 hp1)) (sub_pos.2 hp1)]

/-- An accepted plasma whose surfaces protrude: minor radius 3, shift 2. -/
example : ∃ l, LCFSInfo.make (9 : ℝ) 0 3 1.7 0.3 2 0 = .ok l ∧
    ∃ p : ℝ, 0 < p ∧ p < 1 ∧ (fausserPoint l 1 0).1 < (fausserPoint l p 0).1 := by
  obtain ⟨l, hl⟩ := (C39_accepted (9 : ℝ) 0 3 1.7 0.3 2 0).2 (by norm_num [abs_of_pos])
  exact ⟨l, hl, C41_protrudes _ _ _ _ _ _ _ l hl (by norm_num [abs_of_pos])⟩
/-- An accepted plasma whose surfaces are nested: minor radius 3, shift 1/2. -/
example : ∃ l, LCFSInfo.make (9 : ℝ) 0 3 1.7 0.3 0.5 0 = .ok l ∧
    (fausserPoint l 0.2 0).1 < (fausserPoint l 0.9 0).1 := by
  obtain ⟨l, hl⟩ := (C39_accepted (9 : ℝ) 0 3 1.7 0.3 0.5 0).2 (by norm_num [abs_of_pos])
  exact ⟨l, hl, (C41_outboard_iff _ _ _ _ _ _ _ l hl).2 (by norm_num [abs_of_pos]) _ _
    (by norm_num) (by norm_num) (by norm_num)⟩

/-- C42.  The Sauter surface of zero flux is the O-point of the flux map exactly when the shift
vanishes and the squareness term vanishes at every computed angle. -/
theorem C42_axis_iff (r0 z0 aspect kappa delta shift sq : ℝ) (l : LCFSInfo ℝ)
    (hl : LCFSInfo.make r0 z0 aspect kappa delta shift sq = .ok l) (n : ℕ) (hn : 6 ≤ n)
    (s : List (ℝ × ℝ)) (hs : fluxSurface .sauter l 0 n = .ok s) :
    (∀ p ∈ s, p = ((paramOPoint l).x, (paramOPoint l).z)) ↔ shift = 0 ∧ sq = 0 := by
  obtain ⟨⟨e1, e2, -, -, -, e6, e7⟩, -⟩ := C39_stored _ _ _ _ _ _ _ l hl
  have e := fluxSurface_eq _ _ _ _ _ hs
  subst e
  have ep : ∀ al, Parameterisation.sauter.point l 0 al = (r0 - sq * Real.sin (2 * al), z0) := by
    intro al; simp [Parameterisation.point, sauterPoint, e1, e2, e6]
  simp only [List.mem_map, forall_exists_index, and_imp, forall_apply_eq_imp_iff₂, ep, paramOPoint,
    e1, e2, e7, Prod.mk.injEq, and_true]
  constructor
  · intro h
    have h0 := h 0 (List.mem_of_mem_head? (by rw [angles_head n (by omega)]; simp))
    have hshift : shift = 0 := by
      simp at h0; exact h0
    refine ⟨hshift, ?_⟩
    have hmem : 2 * Real.pi * ((1 : ℝ) / ((n : ℝ) - 1)) ∈ angles n := by
      unfold angles
      rw [if_neg (by omega)]
      exact List.mem_map.2 ⟨1, List.mem_range.2 (by omega), by norm_num⟩
    have h1 := h _ hmem
    rw [hshift] at h1
    have hn' : (5 : ℝ) ≤ (n : ℝ) - 1 := by
      have : (6 : ℝ) ≤ n := by exact_mod_cast hn
      linarith
    have hpos : 0 < Real.sin (2 * (2 * Real.pi * (1 / ((n : ℝ) - 1)))) := by
      apply Real.sin_pos_of_pos_of_lt_pi
      · have := Real.pi_pos; positivity
      · have hfrac : 1 / ((n : ℝ) - 1) ≤ 1 / 5 := one_div_le_one_div_of_le (by norm_num) hn'
        nlinarith [Real.pi_pos]
    have : sq * Real.sin (2 * (2 * Real.pi * (1 / ((n : ℝ) - 1)))) = 0 := by
      simp only [abs_zero] at h1; linarith
    exact (mul_eq_zero.1 this).resolve_right hpos.ne'
  · rintro ⟨rfl, rfl⟩ al _
    simp

/-- C42.  Witness: squareness 0.1 with the default 100 points; the zero-flux surface is not the
O-point. -/
example : ∃ l s, LCFSInfo.make (9 : ℝ) 0 3 1.7 0.3 0 0.1 = .ok l ∧
    fluxSurface .sauter l 0 100 = .ok s ∧
    ¬ ∀ p ∈ s, p = ((paramOPoint l).x, (paramOPoint l).z) := by
  obtain ⟨l, hl⟩ := (C39_accepted (9 : ℝ) 0 3 1.7 0.3 0 0.1).2 (by norm_num [abs_of_pos])
  obtain ⟨s, hs, -⟩ := C42_closed .sauter l 0 100 (by norm_num)
  refine ⟨l, s, hl, hs, ?_⟩
  rw [C42_axis_iff _ _ _ _ _ _ _ l hl 100 (by norm_num) s hs]
  norm_num

/-- C42.  The squareness is not bounded by the accepted parameters: some accepted plasma has surface
points at negative radius. -/
theorem C42_negative_radius : ∃ l s, LCFSInfo.make (9 : ℝ) 0 3 1.7 0.3 0 20 = .ok l ∧
    fluxSurface .sauter l 1 9 = .ok s ∧ ∃ p ∈ s, p.1 < 0 := by
  obtain ⟨l, hl⟩ := (C39_accepted (9 : ℝ) 0 3 1.7 0.3 0 20).2 (by norm_num [abs_of_pos])
  obtain ⟨⟨e1, e2, -, -, -, e6, e7⟩, em, -⟩ := C39_stored _ _ _ _ _ _ _ l hl
  obtain ⟨s, hs, -⟩ := C42_closed .sauter l 1 9 (by norm_num)
  refine ⟨l, s, hl, hs, Parameterisation.sauter.point l 1 (2 * Real.pi * ((1 : ℝ) / ((9 : ℝ) - 1))), ?_, ?_⟩
  · rw [fluxSurface_eq _ _ _ _ _ hs]
    refine List.mem_map.2 ⟨_, ?_, rfl⟩
    unfold angles
    rw [if_neg (by norm_num)]
    exact List.mem_map.2 ⟨1, List.mem_range.2 (by norm_num), by norm_num⟩
  · simp only [Parameterisation.point, sauterPoint, e1, e6, em]
    have : Real.sin (2 * (2 * Real.pi * ((1 : ℝ) / ((9 : ℝ) - 1)))) = 1 := by
      rw [show 2 * (2 * Real.pi * ((1 : ℝ) / ((9 : ℝ) - 1))) = Real.pi / 2 by ring]
      exact Real.sin_pi_div_two
    rw [this]
    have h1 := Real.cos_le_one (2 * Real.pi * (1 / (9 - 1)) + l.delta * Real.sin (2 * Real.pi * (1 / (9 - 1))))
    nlinarith

/-! ## C48 -/

theorem zip_replicate {α β : Type} (as : List α) (c : β) :
    List.zip as (List.replicate as.length c) = as.map (fun a => (a, c)) := by
  induction as with
  | nil => rfl
  | cons a as ih => simp [List.replicate_succ, ih]

/-- C48.  A flux map built from a parameterisation (at least one positive radius and one point per
surface): the LCFS is the flux-1 surface; the first scattered point is the O-point, with normalised
flux 0; then follow, surface by surface, the points of the flux-ρ surfaces, each labelled ρ (LINEAR)
or √ρ (SQRT); coordinates and labels are equally many. -/
theorem C48_labels (p : Parameterisation) (l : LCFSInfo ℝ) (rho : List ℝ) (n : ℕ) (hn : 1 ≤ n)
    (hrho : ∃ r ∈ rho, 0 < r) (conv : FluxConvention) :
    ∃ m, fromParameterisation p l rho n conv = .ok m ∧
      fluxSurface p l 1 n = .ok m.lcfs ∧
      m.oPoint = ⟨l.r0 + l.shift, l.z0, 0⟩ ∧
      m.pts.length = m.labels.length ∧
      List.zip m.pts m.labels =
        ((l.r0 + l.shift, l.z0), 0) :: (rho.filter (0 < ·)).flatMap (fun r =>
          ((angles n).map (p.point l r)).map (fun q =>
            (q, match conv with | .linear => r | .sqrt => Real.sqrt r))) := by
  have hs : ∀ psi, fluxSurface p l psi n = .ok ((angles n).map (p.point l psi)) := by
    intro psi
    obtain ⟨s, h, -⟩ := C42_closed p l psi n hn
    rw [h, fluxSurface_eq _ _ _ _ _ h]
  have hmap : ∀ rs : List ℝ, rs.mapM (fun r => fluxSurface p l r n) =
      .ok (rs.map (fun r => (angles n).map (p.point l r))) := by
    intro rs
    induction rs with
    | nil => rfl
    | cons r rs ih => rw [List.mapM_cons, hs, ih]; rfl
  set rs := rho.filter (fun r => decide (r > 0)) with hrs
  have hne : rs.map (fun r => (angles n).map (p.point l r)) ≠ [] := by
    obtain ⟨r, hr, hr0⟩ := hrho
    simp only [ne_eq, List.map_eq_nil_iff]
    intro h0
    have : r ∈ rs := List.mem_filter.2 ⟨hr, by simpa using hr0⟩
    rw [h0] at this
    simp at this
  refine ⟨{ lcfs := (angles n).map (p.point l 1), oPoint := paramOPoint l
            pts := ((paramOPoint l).x, (paramOPoint l).z) ::
              (rs.map (fun r => (angles n).map (p.point l r))).flatten
            labels := (1 :: rs.flatMap (fun r => List.replicate n (1 - r))).map
              (fun q => normalisePsi q 1 0 conv) }, ?_, hs 1, rfl, ?_, ?_⟩
  · unfold fromParameterisation
    simp only [hs 1, ← hrs, hmap, bind, Except.bind]
    rw [if_neg hne]
  · simp only [List.length_cons, List.length_map, List.length_flatMap, List.length_flatten,
      List.map_map, List.length_replicate]
    congr 2
    apply List.map_congr_left
    intro r _
    simp [angles_length]
  · have hlab : ∀ r : ℝ, 0 < r → normalisePsi (1 - r) 1 0 conv =
        match conv with | .linear => r | .sqrt => Real.sqrt r := by
      intro r hr
      have : normaliseLinear (1 - r) 1 0 = r := by
        simp [normaliseLinear, hr.le]
      cases conv <;> simp [normalisePsi, this]
    have h0 : normalisePsi 1 1 0 conv = 0 := by
      cases conv <;> simp [normalisePsi, normaliseLinear]
    have hpos : ∀ r ∈ rs, 0 < r := by
      intro r hr; simpa using (List.mem_filter.1 hr).2
    simp only [List.map_cons, List.zip_cons_cons, h0, paramOPoint]
    refine congrArg _ ?_
    clear_value rs
    clear hne hrs
    induction rs with
    | nil => rfl
    | cons r rs ih =>
      simp only [List.map_cons, List.flatten_cons, List.flatMap_cons, List.map_append]
      rw [List.zip_append (by simp [angles_length]), ih (fun x hx => hpos x (by simp [hx]))]
      congr 1
      rw [List.map_replicate, hlab r (hpos r (by simp))]
      have hl2 : ((angles n).map (p.point l r)).length = n := by simp [angles_length]
      have := zip_replicate ((angles n).map (p.point l r))
        (match conv with | .linear => r | .sqrt => Real.sqrt r)
      rw [hl2] at this
      exact this

/-- Without a positive radius in the profile the construction fails with `ValueError`. -/
theorem C48_no_radius (p : Parameterisation) (l : LCFSInfo ℝ) (rho : List ℝ) (n : ℕ) (hn : 1 ≤ n)
    (hrho : ∀ r ∈ rho, r ≤ 0) (conv : FluxConvention) :
    fromParameterisation p l rho n conv = .error .valueError := by
  obtain ⟨s, h, -⟩ := C42_closed p l 1 n hn
  have : rho.filter (fun r => decide (r > 0)) = [] := by
    rw [List.filter_eq_nil_iff]
    intro r hr
    simpa using hrho r hr
  unfold fromParameterisation
  simp only [h, bind, Except.bind, this]
  rfl

/-- C48.  With SQRT the label of an interior surface differs from the flux it is requested by. -/
theorem C48_sqrt_differs (r : ℝ) (h0 : 0 < r) (h1 : r < 1) : r < Real.sqrt r := by
  rw [Real.lt_sqrt h0.le]; nlinarith

/-- A flux map with two surfaces of three points. -/
example (l : LCFSInfo ℝ) : ∃ m, fromParameterisation .fausser l [0, 0.5, 1] 3 .linear = .ok m ∧
    m.pts.length = 7 ∧ m.labels.length = 7 := by
  obtain ⟨m, hm, -, -, hl, hz⟩ := C48_labels .fausser l [0, 0.5, 1] 3 (by norm_num)
    ⟨1, by simp, by norm_num⟩ .linear
  refine ⟨m, hm, ?_⟩
  have := congrArg List.length hz
  rw [List.length_zip, ← hl, min_self] at this
  rw [← hl]
  rw [this]
  have hf : ([0, 0.5, 1] : List ℝ).filter (fun x => decide (0 < x)) = [0.5, 1] := by
    simp [List.filter]; norm_num
  rw [hf]
  simp [angles_length]

end
end TNS
