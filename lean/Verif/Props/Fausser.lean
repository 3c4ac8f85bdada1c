import Verif.Lemmas.Fausser
import Verif.Props.Flux
import Mathlib.Analysis.Convex.Topology
import Mathlib.Analysis.Normed.Module.Convex
/-
C41 in the plane: every Fausser flux surface is the boundary of a convex region, and with a Shafranov
shift of at most half the minor radius the surfaces are strictly nested, so they never cross.
-/

set_option autoImplicit false

namespace TNS
noncomputable section

theorem outboard_cont (d : ℝ) : Continuous (outboard d) := by unfold outboard; fun_prop
theorem inboard_cont (d : ℝ) : Continuous (inboard d) := (outboard_cont (-d)).neg

theorem shape_interior_mem (d : ℝ) (p : ℝ × ℝ) (h0 : p.2 ∈ Set.Ioo (-1 : ℝ) 1)
    (h1 : inboard d p.2 < p.1) (h2 : p.1 < outboard d p.2) : p ∈ interior (shapeRegion d) := by
  rw [mem_interior]
  refine ⟨{p | (-1 < p.2 ∧ p.2 < 1) ∧ inboard d p.2 < p.1 ∧ p.1 < outboard d p.2}, ?_, ?_,
    ⟨h0, h1, h2⟩⟩
  · rintro q ⟨⟨a, b⟩, c, e⟩
    exact ⟨⟨a.le, b.le⟩, c.le, e.le⟩
  · have e1 : Continuous fun p : ℝ × ℝ => inboard d p.2 := (inboard_cont d).comp continuous_snd
    have e2 : Continuous fun p : ℝ × ℝ => outboard d p.2 := (outboard_cont d).comp continuous_snd
    exact ((isOpen_lt continuous_const continuous_snd).inter
      (isOpen_lt continuous_snd continuous_const)).inter
      ((isOpen_lt e1 continuous_fst).inter (isOpen_lt continuous_fst e2))

theorem shapeRegion_closed (d : ℝ) : IsClosed (shapeRegion d) := by
  have e1 : Continuous fun p : ℝ × ℝ => inboard d p.2 := (inboard_cont d).comp continuous_snd
  have e2 : Continuous fun p : ℝ × ℝ => outboard d p.2 := (outboard_cont d).comp continuous_snd
  exact ((isClosed_le continuous_const continuous_snd).inter
      (isClosed_le continuous_snd continuous_const)).inter
      ((isClosed_le e1 continuous_fst).inter (isClosed_le continuous_fst e2))

theorem mem_range_shape (d x z : ℝ) (hz : z ∈ Set.Icc (-1 : ℝ) 1)
    (h : x = outboard d z ∨ x = inboard d z) : (x, z) ∈ Set.range (shapePoint d) := by
  have e : Real.sin (Real.arcsin z) = z := Real.sin_arcsin hz.1 hz.2
  rcases h with rfl | rfl
  · exact ⟨Real.arcsin z, by simp [shapePoint, outboard, e]⟩
  · refine ⟨Real.pi - Real.arcsin z, ?_⟩
    have e3 : Real.sin (Real.pi - Real.arcsin z) = z := by rw [Real.sin_pi_sub, e]
    simp only [shapePoint, e3, inboard, outboard]
    rw [show Real.pi - Real.arcsin z + d * z = Real.pi - (Real.arcsin z + -d * z) by ring,
      Real.cos_pi_sub]

theorem shape_frontier (d : ℝ) (hd : -1 ≤ d ∧ d ≤ 1) :
    frontier (shapeRegion d) = Set.range (shapePoint d) := by
  rw [frontier, (shapeRegion_closed d).closure_eq]
  apply Set.Subset.antisymm
  · rintro ⟨x, z⟩ ⟨⟨hz, h1, h2⟩, hn⟩
    apply mem_range_shape d x z hz
    by_contra hne
    push Not at hne
    have h1' := lt_of_le_of_ne h1 (Ne.symm hne.2)
    have h2' := lt_of_le_of_ne h2 hne.1
    have hz' : z ∈ Set.Ioo (-1 : ℝ) 1 := by
      have hs := outboard_sub_inboard d z
      refine ⟨lt_of_le_of_ne hz.1 ?_, lt_of_le_of_ne hz.2 ?_⟩
      · rintro rfl
        simp at hs
        linarith
      · rintro rfl
        simp [Real.arcsin_one] at hs
        linarith
    exact hn (shape_interior_mem d (x, z) hz' h1' h2')
  · rintro _ ⟨al, rfl⟩
    exact ⟨shapePoint_mem d al hd, shapePoint_not_interior d al _ le_rfl⟩

/-- From the normalised cross section to the surface of flux `psi`. -/
def embedAff (l : LCFSInfo ℝ) (psi : ℝ) : (ℝ × ℝ) →ᵃ[ℝ] (ℝ × ℝ) :=
  (LinearMap.prodMap ((psi * l.r0 / l.aspect) • (LinearMap.id : ℝ →ₗ[ℝ] ℝ))
    ((psi * l.r0 / l.aspect * l.kappa) • (LinearMap.id : ℝ →ₗ[ℝ] ℝ))).toAffineMap +
    AffineMap.const ℝ (ℝ × ℝ) (l.r0 + |l.shift| * (1 - psi ^ 2), l.z0)

theorem embedAff_apply (l : LCFSInfo ℝ) (psi : ℝ) (b : ℝ × ℝ) :
    embedAff l psi b = (psi * l.r0 / l.aspect * b.1 + (l.r0 + |l.shift| * (1 - psi ^ 2)),
      psi * l.r0 / l.aspect * l.kappa * b.2 + l.z0) := by
  simp [embedAff]

theorem fausserPoint_eq (l : LCFSInfo ℝ) (psi al : ℝ) :
    fausserPoint l psi al = embedAff l psi (shapePoint l.delta al) := by
  rw [embedAff_apply]
  simp only [fausserPoint, shapePoint]
  ext <;> simp <;> ring

/-- The same map as a homeomorphism. -/
def embedHomeo (l : LCFSInfo ℝ) (psi : ℝ) (h1 : psi * l.r0 / l.aspect ≠ 0)
    (h2 : psi * l.r0 / l.aspect * l.kappa ≠ 0) : (ℝ × ℝ) ≃ₜ (ℝ × ℝ) :=
  ((Homeomorph.mulLeft₀ _ h1).trans (Homeomorph.addRight (l.r0 + |l.shift| * (1 - psi ^ 2)))).prodCongr
    ((Homeomorph.mulLeft₀ _ h2).trans (Homeomorph.addRight l.z0))

theorem embedHomeo_coe (l : LCFSInfo ℝ) (psi : ℝ) (h1 : psi * l.r0 / l.aspect ≠ 0)
    (h2 : psi * l.r0 / l.aspect * l.kappa ≠ 0) :
    (embedHomeo l psi h1 h2 : ℝ × ℝ → ℝ × ℝ) = embedAff l psi := by
  funext b
  rw [embedAff_apply]
  rfl

theorem fausser_range (l : LCFSInfo ℝ) (psi : ℝ) :
    Set.range (fausserPoint l psi) = embedAff l psi '' Set.range (shapePoint l.delta) := by
  rw [← Set.range_comp]
  congr 1
  funext al
  exact fausserPoint_eq l psi al

theorem fausser_hull (l : LCFSInfo ℝ) (psi : ℝ) (hd : -1 ≤ l.delta ∧ l.delta ≤ 1) :
    convexHull ℝ (Set.range (fausserPoint l psi)) = embedAff l psi '' shapeRegion l.delta := by
  rw [fausser_range, ← shape_hull _ hd]
  exact ((embedAff l psi).image_convexHull _).symm

theorem made_pos (r0 z0 aspect kappa delta shift sq : ℝ) (l : LCFSInfo ℝ)
    (hl : LCFSInfo.make r0 z0 aspect kappa delta shift sq = .ok l) :
    0 < l.r0 / l.aspect ∧ 1 ≤ l.kappa ∧ (-1 ≤ l.delta ∧ l.delta ≤ 1) := by
  obtain ⟨⟨e1, e2, e3, e4, e5, e6, e7⟩, -⟩ := C39_stored _ _ _ _ _ _ _ l hl
  have := (C39_accepted r0 z0 aspect kappa delta shift sq).1 ⟨l, hl⟩
  rw [e1, e3, e4, e5]
  obtain ⟨h1, h2, h3, h4, h5⟩ := this
  exact ⟨div_pos h1 (by linarith), h3, abs_le.1 h4⟩

/-- C41.  Every Fausser flux surface of an accepted plasma is exactly the boundary of a convex
region: it has no dents and does not cross itself. -/
theorem C41_convex (r0 z0 aspect kappa delta shift sq : ℝ) (l : LCFSInfo ℝ)
    (hl : LCFSInfo.make r0 z0 aspect kappa delta shift sq = .ok l) (psi : ℝ) (hpsi : 0 < psi) :
    frontier (convexHull ℝ (Set.range (fausserPoint l psi))) = Set.range (fausserPoint l psi) := by
  obtain ⟨ha, hk, hd⟩ := made_pos _ _ _ _ _ _ _ l hl
  have h1 : psi * l.r0 / l.aspect ≠ 0 := by
    rw [mul_div_assoc]; exact (mul_pos hpsi ha).ne'
  have h2 : psi * l.r0 / l.aspect * l.kappa ≠ 0 := mul_ne_zero h1 (by linarith)
  rw [fausser_hull l psi hd, fausser_range, ← embedHomeo_coe l psi h1 h2,
    ← Homeomorph.image_frontier, shape_frontier _ hd]

/-- C41.  If the Shafranov shift is at most half the minor radius, every surface lies strictly inside
every surface of larger flux, so that no two surfaces cross or touch. -/
theorem C41_nested (r0 z0 aspect kappa delta shift sq : ℝ) (l : LCFSInfo ℝ)
    (hl : LCFSInfo.make r0 z0 aspect kappa delta shift sq = .ok l)
    (hs : |shift| ≤ (r0 / aspect) / 2) (p q : ℝ) (hp : 0 ≤ p) (hpq : p < q) (hq : q ≤ 1) :
    Set.range (fausserPoint l p) ⊆ interior (convexHull ℝ (Set.range (fausserPoint l q))) ∧
    Disjoint (Set.range (fausserPoint l p)) (Set.range (fausserPoint l q)) := by
  obtain ⟨ha, hk, hd⟩ := made_pos _ _ _ _ _ _ _ l hl
  obtain ⟨⟨e1, e2, e3, e4, e5, e6, e7⟩, -⟩ := C39_stored _ _ _ _ _ _ _ l hl
  have hq0 : 0 < q := lt_of_le_of_lt hp hpq
  have h1 : q * l.r0 / l.aspect ≠ 0 := by
    rw [mul_div_assoc]; exact (mul_pos hq0 ha).ne'
  have h2 : q * l.r0 / l.aspect * l.kappa ≠ 0 := mul_ne_zero h1 (by linarith)
  have hsub : Set.range (fausserPoint l p) ⊆
      interior (convexHull ℝ (Set.range (fausserPoint l q))) := by
    rintro _ ⟨al, rfl⟩
    rw [fausser_hull l q hd, ← embedHomeo_coe l q h1 h2, ← Homeomorph.image_interior]
    set a := l.r0 / l.aspect with hadef
    set S := |l.shift| with hS
    have hSle : S ≤ a / 2 := by
      rw [hS, hadef, e7, abs_abs, e1, e3]; exact hs
    have hS0 : 0 ≤ S := abs_nonneg _
    set t : ℝ × ℝ := (S * (p + q) / a, 0) with ht
    have htlt : S * (p + q) / a < 1 := by
      rw [div_lt_one ha]; nlinarith
    have ht0 : 0 ≤ S * (p + q) / a := by positivity
    have htin : t ∈ interior (shapeRegion l.delta) := by
      apply shape_interior_mem
      · simp [ht]
      · simp [ht, inboard, outboard]; linarith
      · simp [ht, outboard]; exact htlt
    have hb := shapePoint_mem l.delta al hd
    have hmem : ((q - p) / q) • t + (p / q) • shapePoint l.delta al ∈
        interior (shapeRegion l.delta) := by
      apply (shapeRegion_convex l.delta hd).combo_interior_self_mem_interior htin hb
      · exact div_pos (by linarith) hq0
      · exact div_nonneg hp hq0.le
      · field_simp; ring
    refine ⟨_, hmem, ?_⟩
    rw [embedHomeo_coe, fausserPoint_eq, embedAff_apply, embedAff_apply]
    simp only [ht, Prod.smul_fst, Prod.fst_add, Prod.snd_add, Prod.smul_snd, smul_eq_mul]
    rw [mul_div_assoc q, mul_div_assoc p, ← hadef, ← hS]
    ext
    · simp only
      field_simp
      ring
    · simp only
      field_simp
      ring
  refine ⟨hsub, ?_⟩
  rw [Set.disjoint_left]
  intro x hx hx'
  have h3 := hsub hx
  rw [← C41_convex _ _ _ _ _ _ _ l hl q hq0] at hx'
  exact hx'.2 h3

/-- An accepted plasma (major radius 9, minor radius 3, shift 1/2) to which both theorems apply. -/
example : ∃ l, LCFSInfo.make (9 : ℝ) 0 3 1.7 0.3 0.5 0 = .ok l ∧
    Disjoint (Set.range (fausserPoint l 0.2)) (Set.range (fausserPoint l 0.9)) := by
  obtain ⟨l, hl⟩ := (C39_accepted (9 : ℝ) 0 3 1.7 0.3 0.5 0).2 (by norm_num [abs_of_pos])
  exact ⟨l, hl, (C41_nested _ _ _ _ _ _ _ l hl (by norm_num [abs_of_pos]) _ _
    (by norm_num) (by norm_num) (by norm_num)).2⟩

end
end TNS
