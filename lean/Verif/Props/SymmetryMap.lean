import Verif.Props.Symmetry
import Verif.Props.Flux
/-
C75 at the level of plasma parameters: moving or enlarging the plasma described by
`LCFSInformation` moves or enlarges the flux map data, and the source follows.
-/

set_option autoImplicit false

namespace TNS
open Spec
noncomputable section

/-- Plasma parameters of a plasma moved along `z`: accepted in the same cases. -/
theorem make_moved (r0 z0 aspect kappa delta shift sq d : ℝ) :
    LCFSInfo.make r0 (z0 + d) aspect kappa delta shift sq =
      (LCFSInfo.make r0 z0 aspect kappa delta shift sq).map (moveInfo d) := by
  unfold LCFSInfo.make
  split_ifs <;> first | rfl | (simp only; split_ifs <;> rfl)

/-- Plasma parameters of an enlarged plasma: accepted in the same cases. -/
theorem make_enlarged (r0 z0 aspect kappa delta shift sq c : ℝ) (hc : 0 < c) :
    LCFSInfo.make (c * r0) (c * z0) aspect kappa delta (c * shift) sq =
      (LCFSInfo.make r0 z0 aspect kappa delta shift sq).map (enlargeInfo c) := by
  have e1 : (c * r0 ≤ 0) = (r0 ≤ 0) := by
    apply propext
    constructor
    · intro h; by_contra hn; nlinarith [mul_pos hc (not_le.1 hn)]
    · intro h; nlinarith
  have e2 : |c * shift| = c * |shift| := by rw [abs_mul, abs_of_pos hc]
  have e3 : c * r0 / aspect = c * (r0 / aspect) := by ring
  have e4 : (c * |shift| ≥ c * (r0 / aspect)) = (|shift| ≥ r0 / aspect) :=
    propext (mul_le_mul_iff_right₀ hc)
  unfold LCFSInfo.make
  simp only [e1, e2, e3, e4]
  split_ifs <;> rfl

theorem point_moved (p : Parameterisation) (l : LCFSInfo ℝ) (psi d t : ℝ) :
    p.point (moveInfo d l) psi t = ((p.point l psi t).1, (p.point l psi t).2 + d) := by
  cases p
  · simp only [Parameterisation.point, fausserPoint, moveInfo]
    ext <;> simp <;> ring
  · simp only [Parameterisation.point, sauterPoint, moveInfo]
    ext <;> simp <;> ring

theorem point_enlarged (p : Parameterisation) (l : LCFSInfo ℝ) (psi c t : ℝ) (hc : 0 < c)
    (hp : (match p with | .fausser => True | .sauter => l.squareness = 0)) :
    p.point (enlargeInfo c l) psi t = (c * (p.point l psi t).1, c * (p.point l psi t).2) := by
  cases p
  · simp only [Parameterisation.point, fausserPoint, enlargeInfo, abs_mul, abs_of_pos hc]
    ext <;> simp <;> ring
  · simp only [Parameterisation.point, sauterPoint, enlargeInfo, hp]
    ext <;> simp <;> ring

theorem fluxSurface_ok (p : Parameterisation) (l : LCFSInfo ℝ) (psi : ℝ) (n : ℕ) (hn : 1 ≤ n) :
    fluxSurface p l psi n = .ok ((angles n).map (p.point l psi)) := by
  obtain ⟨s, hs, -⟩ := C42_closed p l psi n hn
  rw [hs, fluxSurface_eq p l psi n s hs]

theorem fromParameterisation_map (p : Parameterisation) (l l' : LCFSInfo ℝ) (g : ℝ × ℝ → ℝ × ℝ)
    (hg : ∀ psi t, p.point l' psi t = g (p.point l psi t))
    (ho : ((paramOPoint l').x, (paramOPoint l').z) = g ((paramOPoint l).x, (paramOPoint l).z))
    (rho : List ℝ) (n : ℕ) (hn : 1 ≤ n) (conv : FluxConvention) :
    fromParameterisation p l' rho n conv = (fromParameterisation p l rho n conv).map (fun fm =>
      { lcfs := fm.lcfs.map g, oPoint := paramOPoint l', pts := fm.pts.map g, labels := fm.labels }) := by
  have hs : ∀ psi, fluxSurface p l' psi n = .ok (((angles n).map (p.point l psi)).map g) := by
    intro psi
    rw [fluxSurface_ok p l' psi n hn, List.map_map]
    congr 2
    funext t
    exact hg psi t
  have hs' : ∀ psi, fluxSurface p l psi n = .ok ((angles n).map (p.point l psi)) :=
    fun psi => fluxSurface_ok p l psi n hn
  have hm : ∀ (rs : List ℝ) (F : ℝ → List (ℝ × ℝ)), (rs.mapM fun r => (Except.ok (F r) : Except Err _)) =
      .ok (rs.map F) := by
    intro rs F
    induction rs with
    | nil => rfl
    | cons a rs ih => rw [List.mapM_cons, ih]; rfl
  unfold fromParameterisation
  simp only [hs, hs', hm, Bind.bind, Except.bind]
  generalize rho.filter (fun r => decide (r > 0)) = rs
  by_cases hrs : rs = []
  · subst hrs; rfl
  · rw [if_neg (by simpa using hrs), if_neg (by simpa using hrs)]
    simp only [Except.map, List.map_cons, List.map_flatten, List.map_map, ho,
      Function.comp_def]

/-- C75.  The flux map of a plasma moved by `d` along `z` is the moved flux map, for both
parameterisations. -/
theorem C75_map_moved (p : Parameterisation) (l : LCFSInfo ℝ) (rho : List ℝ) (n : ℕ) (hn : 1 ≤ n)
    (conv : FluxConvention) (d : ℝ) :
    fromParameterisation p (moveInfo d l) rho n conv =
      (fromParameterisation p l rho n conv).map (moveParam d) := by
  rw [fromParameterisation_map p l (moveInfo d l) (fun q => (q.1, q.2 + d)) (fun psi t =>
    point_moved p l psi d t) rfl rho n hn conv]
  unfold fromParameterisation
  obtain ⟨s, hs, -⟩ := C42_closed p l 1 n hn
  simp only [hs, Bind.bind, Except.bind]
  cases List.mapM (fun r => fluxSurface p l r n) (rho.filter fun r => decide (r > 0)) with
  | error e => rfl
  | ok surfs =>
    simp only
    split_ifs
    · rfl
    · rfl

/-- C75.  The flux map of a plasma enlarged by the factor `c` is the enlarged flux map (Fausser, or
Sauter with zero squareness). -/
theorem C75_map_enlarged (p : Parameterisation) (l : LCFSInfo ℝ)
    (hp : p = .fausser ∨ l.squareness = 0) (rho : List ℝ) (n : ℕ) (hn : 1 ≤ n)
    (conv : FluxConvention) (c : ℝ) (hc : 0 < c) :
    fromParameterisation p (enlargeInfo c l) rho n conv =
      (fromParameterisation p l rho n conv).map (enlargeParam c) := by
  rw [fromParameterisation_map p l (enlargeInfo c l) (fun q => (c * q.1, c * q.2)) (fun psi t =>
    point_enlarged p l psi c t hc (by rcases hp with rfl | h <;> [trivial; (cases p <;> [trivial; exact h])]))
    (by simp only [paramOPoint, enlargeInfo]; ext <;> simp <;> ring) rho n hn conv]
  unfold fromParameterisation
  obtain ⟨s, hs, -⟩ := C42_closed p l 1 n hn
  simp only [hs, Bind.bind, Except.bind]
  cases List.mapM (fun r => fluxSurface p l r n) (rho.filter fun r => decide (r > 0)) with
  | error e => rfl
  | ok surfs =>
    simp only
    split_ifs
    · rfl
    · simp only [Except.map, enlargeParam, paramOPoint, enlargeInfo, mul_add]

/-- C75.  Moving the plasma (parameter `z_0`) by `d` moves the source by `d` and changes nothing else,
whatever the profiles, channels, cell side and power, if the interpolated flux moves along. -/
theorem C75_source_moved (u : SI) (m : Masses ℝ) (amu : ℝ) (tr : Transport) (p : Parameterisation)
    (r0 z0 aspect kappa delta shift sq d : ℝ) (l : LCFSInfo ℝ)
    (hl : LCFSInfo.make r0 z0 aspect kappa delta shift sq = .ok l) (rho : List ℝ) (n : ℕ) (hn : 1 ≤ n)
    (conv : FluxConvention) (fm : ParamMap) (hfm : fromParameterisation p l rho n conv = .ok fm)
    (psi : ℝ → ℝ → ℝ) (arg : SourceArg) (L : ℝ) (power : Option ℝ) (method : ReactivityMethod) :
    ∃ l' fm', LCFSInfo.make r0 (z0 + d) aspect kappa delta shift sq = .ok l' ∧
      fromParameterisation p l' rho n conv = .ok fm' ∧
      makeSource u m amu tr (fm'.view fun x z => psi x (z - d)) arg L power method =
        (makeSource u m amu tr (fm.view psi) arg L power method).map (move d) := by
  refine ⟨moveInfo d l, moveParam d fm, by rw [make_moved, hl]; rfl,
    by rw [C75_map_moved p l rho n hn, hfm]; rfl, ?_⟩
  have hlc : fm.lcfs ≠ [] := by
    unfold fromParameterisation at hfm
    obtain ⟨s, hs, hlen, -⟩ := C42_closed p l 1 n hn
    simp only [hs, Bind.bind, Except.bind] at hfm
    split at hfm
    · cases hfm
    · split_ifs at hfm
      cases hfm
      intro h0
      simp only at h0
      rw [h0] at hlen
      simp at hlen
      omega
  have hv : (moveParam d fm).view (fun x z => psi x (z - d)) = moveMap d (fm.view psi) := by
    simp only [ParamMap.view, moveParam, moveMap, FluxMapView.mk.injEq, List.map_map, Function.comp_def,
      true_and, and_true]
    funext q
    have := containsPoint_shift d fm.lcfs q.1 (q.2 - d)
    rwa [sub_add_cancel] at this
  unfold makeSource
  rw [hv]
  exact C75_moved _ _ _ _ _ (by simpa [ParamMap.view] using hlc) _ _ _ _

/-- C75.  Enlarging a Fausser plasma by the factor `c` (major radius, vertical position and shift, at
the same aspect ratio, elongation and triangularity) together with the cell side enlarges the source:
strengths and rates grow by `c³`; with a requested power they stay the same. -/
theorem C75_source_enlarged (u : SI) (m : Masses ℝ) (amu : ℝ) (tr : Transport) (p : Parameterisation)
    (r0 z0 aspect kappa delta shift sq c : ℝ) (hc : 0 < c) (hp : p = .fausser ∨ sq = 0) (l : LCFSInfo ℝ)
    (hl : LCFSInfo.make r0 z0 aspect kappa delta shift sq = .ok l) (rho : List ℝ) (n : ℕ) (hn : 1 ≤ n)
    (conv : FluxConvention) (fm : ParamMap) (hfm : fromParameterisation p l rho n conv = .ok fm)
    (psi : ℝ → ℝ → ℝ) (arg : SourceArg) (L : ℝ) (method : ReactivityMethod) :
    ∃ l' fm', LCFSInfo.make (c * r0) (c * z0) aspect kappa delta (c * shift) sq = .ok l' ∧
      fromParameterisation p l' rho n conv = .ok fm' ∧
      makeSource u m amu tr (fm'.view fun x z => psi (x / c) (z / c)) arg (c * L) none method =
        (makeSource u m amu tr (fm.view psi) arg L none method).map (stretch c (c ^ 3) (c ^ 3)) ∧
      ∀ P, makeSource u m amu tr (fm'.view fun x z => psi (x / c) (z / c)) arg (c * L) (some P) method =
        (makeSource u m amu tr (fm.view psi) arg L (some P) method).map (stretch c (c ^ 3) 1) := by
  have hsq : l.squareness = sq := (C39_stored _ _ _ _ _ _ _ l hl).1.2.2.2.2.2.1
  refine ⟨enlargeInfo c l, enlargeParam c fm, by rw [make_enlarged _ _ _ _ _ _ _ _ hc, hl]; rfl,
    by rw [C75_map_enlarged p l (by rw [hsq]; exact hp) rho n hn _ _ hc, hfm]; rfl, ?_⟩
  have hv : (enlargeParam c fm).view (fun x z => psi (x / c) (z / c)) = enlargeMap c (fm.view psi) := by
    simp only [ParamMap.view, enlargeParam, enlargeMap, FluxMapView.mk.injEq, List.map_map,
      Function.comp_def, true_and, and_true]
    funext q
    have := containsPoint_mul c hc fm.lcfs (q.1 / c) (q.2 / c)
    rwa [mul_div_cancel₀ _ hc.ne', mul_div_cancel₀ _ hc.ne'] at this
  unfold makeSource
  rw [hv]
  exact C75_enlarged _ _ _ _ _ _ _ _ hc

/-- C75 (finding).  Sauter surfaces with squareness do not scale with the plasma: the squareness term is
a length that does not know the size.  The point at angle `π/4` of the enlarged plasma lies
`(c - 1) squareness` away from the enlarged point. -/
theorem C75_sauter_squareness (l : LCFSInfo ℝ) (psi c : ℝ) :
    (Parameterisation.sauter.point (enlargeInfo c l) psi (Real.pi / 4)).1 =
      c * (Parameterisation.sauter.point l psi (Real.pi / 4)).1 + (c - 1) * l.squareness := by
  have h : Real.sin (2 * (Real.pi / 4)) = 1 := by
    rw [show 2 * (Real.pi / 4) = Real.pi / 2 by ring, Real.sin_pi_div_two]
  simp only [Parameterisation.point, sauterPoint, enlargeInfo, h]
  ring

/-- A plasma and a flux map to which the theorems above apply. -/
example : ∃ l : LCFSInfo ℝ, ∃ fm, LCFSInfo.make 9 0 3 (17 / 10) (1 / 3) (1 / 2) 0 = .ok l ∧
    fromParameterisation .fausser l [1 / 2, 1] 101 .linear = .ok fm := by
  obtain ⟨l, hl⟩ := (C39_accepted (9 : ℝ) 0 3 (17 / 10) (1 / 3) (1 / 2) 0).2
    (by norm_num)
  refine ⟨l, ?_⟩
  unfold fromParameterisation
  simp only [fluxSurface_ok .fausser l _ 101 (by norm_num), Bind.bind, Except.bind]
  have : (List.filter (fun r : ℝ => decide (r > 0)) [1 / 2, 1]) = [1 / 2, 1] := by norm_num
  rw [this]
  exact ⟨_, hl, rfl⟩

end
end TNS
