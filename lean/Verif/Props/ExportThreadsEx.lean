import Verif.Props.ExportThreads
import Verif.Props.NormThreadsEx
import Verif.Props.Profile
/-
C97: a concrete program.
-/

set_option autoImplicit false

namespace TNS
open Spec Classical
noncomputable section

/-- A package with constant reactivity. -/
def flatPackage : Package :=
  { pi := 3, energy := fun _ => 1, reactivity := fun _ _ T => .ok (T.map (fun _ => 2)) }

/-- The source built with it on a map with one cell: positive power, positive rate. -/
theorem flat_built : ∃ S, built flatPackage exPlasma exMap (.member .DT) 1 .AUTO = .ok S ∧
    0 < S.totalPower flatPackage.energy ∧ 0 < S.sourceRate ∧ S.temperature = [10] ∧ S.sourceType = [.DT] ∧
    0 < (S.strength.getD .DT []).sum := by
  unfold built Source.init
  have hparse : parseSourceType (.member .DT) = .ok [.DT] := by decide +kernel
  have hs : sampleSpace2d flatPackage.pi exMap.lcfsX exMap.lcfsZ exMap.inside exMap.oX exMap.oZ 1 =
      ⟨[3], [0], [2 * 3 * 3 * 1 ^ 2]⟩ := by
    unfold sampleSpace2d
    rw [exMap_points]
    simp [cellVolume, flatPackage]
  have hv : ∀ p : Profile, ∀ c, p.kind = .parabolic c 1 2 → p.scale = 1 → p.value 0 = .ok c := by
    intro p c h1 h2
    unfold Profile.value
    rw [h1, h2]
    simp [exPlasma_core]
  have v1 : exPlasma.view.temperature 0 = .ok 10 := hv exPlasma.temperature 10 rfl rfl
  have v2 : exPlasma.view.deuterium 0 = .ok 1 := hv exPlasma.deuterium 1 rfl rfl
  have v3 : exPlasma.view.tritium 0 = .ok 1 := hv exPlasma.tritium 1 rfl rfl
  have v4 : exPlasma.view.helium3 0 = .ok 0 := hv exPlasma.helium3 0 rfl rfl
  have hz : List.zipWith exMap.psiNorm [3] [0] = [0] := rfl
  have m1 : ∀ (g : ℝ → Except Err ℝ) (c : ℝ), g 0 = .ok c → [(0 : ℝ)].mapM g = .ok [c] := by
    intro g c h
    rw [List.mapM_cons, h]
    rfl
  simp only [hparse, Bind.bind, Except.bind, hs, hz, m1 _ _ v1, m1 _ _ v2, m1 _ _ v3, m1 _ _ v4]
  refine ⟨_, rfl, ?_, ?_, rfl, rfl, ?_⟩
  · simp [Source.totalPower, Dict.getD, Dict.get?, Dict.set, flatPackage, Reaction.DT, pairDensity]
  · simp [Source.sourceRate, Dict.values, Dict.set, flatPackage, Reaction.DT, pairDensity, Reaction.numNeutrons]
  · simp [Dict.getD, Dict.get?, Dict.set, flatPackage, Reaction.DT, pairDensity]

theorem flat_physical : PhysicalInput flatPackage.pi flatPackage.energy (flatPackage.reactivity .AUTO) exPlasma.view exMap := by
  have par : ∀ (p : Profile) (c rho n : ℝ), 0 ≤ c → p.kind = .parabolic c 1 2 → p.scale = 1 → p.value rho = .ok n → 0 ≤ n := by
    intro p c rho n hc h1 h2 h
    unfold Profile.value at h
    rw [h1, h2] at h
    rw [← Except.ok.inj h, one_mul]
    unfold parabolicValue
    have h0 : 0 ≤ clip 0 1 rho ∧ clip 0 1 rho ≤ 1 := by
      unfold clip
      constructor <;> simp
    generalize clip 0 1 rho = y at h0
    obtain ⟨y0, y1⟩ := h0
    have hf : 0 ≤ 1 - (SignType.sign y : ℝ) * |y| ^ (2 : ℝ) := by
      have a1 : |y| ^ (2 : ℝ) ≤ 1 := Real.rpow_le_one (abs_nonneg _) (by rwa [abs_of_nonneg y0]) (by norm_num)
      have a2 : 0 ≤ |y| ^ (2 : ℝ) := Real.rpow_nonneg (abs_nonneg _) _
      rcases y0.lt_or_eq with h | h
      · rw [sign_pos h]; simp only [SignType.coe_one, one_mul]; linarith
      · rw [← h]; simp
    simp only
    generalize 1 - (SignType.sign y : ℝ) * |y| ^ (2 : ℝ) = z at hf
    refine mul_nonneg (mul_nonneg hc ?_) (Real.rpow_nonneg (abs_nonneg _) _)
    rcases hf.lt_or_eq with h | h
    · rw [sign_pos h]; simp
    · rw [← h]; simp
  refine ⟨by norm_num [flatPackage], fun _ => by norm_num [flatPackage], ?_, ?_, ?_, ?_, ?_, ?_⟩
  · exact fun p n h => par exPlasma.deuterium 1 p n (by norm_num) rfl rfl h
  · exact fun p n h => par exPlasma.tritium 1 p n (by norm_num) rfl rfl h
  · exact fun p n h => par exPlasma.helium3 0 p n le_rfl rfl rfl h
  · intro p h
    simp only [exMap, decide_eq_true_eq] at h
    rw [h]; norm_num
  · intro r T w h
    rw [← Except.ok.inj h]; simp
  · intro r T w h v hv
    rw [← Except.ok.inj h] at hv
    simp only [List.mem_map] at hv
    obtain ⟨_, _, rfl⟩ := hv
    norm_num

/-- The hypotheses of `C97_undisturbed`, `C97_bounded` and `C97_mixed` are met: two sources are built; one thread exports the
first, one normalises the second, and (in the last two statements) one normalises the first to the double of its power. -/
example : ∃ S : Source ℝ,
    (∃ steps : ℕ, ∀ sched : List (Option ℕ), steps ≤ sched.count none →
      ((ExportPool.start (startAll (World.run flatPackage exTwo) [(1, 500)]) 0).run flatPackage sched).result
        (fun r t => .ok (r, t)) = some (S.toOpenmc (fun r t => .ok (r, t)))) ∧
    (∃ (rings : List (Ring ℝ (Reaction × ℝ))) (steps : ℕ), S.toOpenmc (fun r t => .ok (r, t)) = .ok rings ∧
      ∀ sched : List (Option ℕ), steps ≤ sched.count none → ∃ rings',
        ((ExportPool.start (startAll (World.run flatPackage exTwo) [(1, 500), (0, 2 * S.totalPower flatPackage.energy)]) 0).run
          flatPackage sched).result (fun r t => .ok (r, t)) = some (.ok rings') ∧
        List.Forall₂ (SameCell 2) rings rings') ∧
    ∃ (sched : List (Option ℕ)) (rings' : List (Ring ℝ (Reaction × ℝ))) (vals : List ℝ),
      ((ExportPool.start (startAll (World.run flatPackage exTwo) [(0, 2 * S.totalPower flatPackage.energy)]) 0).run
          flatPackage sched).result (fun r t => .ok (r, t)) = some (.ok rings') ∧
      rings'.map (fun R => R.strength) = vals.map XF.fin ∧ vals.sum = 2 := by
  obtain ⟨S, hS, hp, hrate, -⟩ := flat_built
  have hst : (World.run flatPackage exTwo).source? 0 = some S.toXF :=
    C83_life flatPackage [.newTransport exPlasma, .newMap exMap] [.construct 0 0 (.member .DT) 1 none .AUTO]
      (t := 0) (k := 0) (arg := .member .DT) (L := 1) (power := none) (method := .AUTO) (tr := exPlasma) (fm := exMap)
      (S := S) rfl rfl hS (Or.inl rfl)
  have hr : PhysReachable flatPackage.pi flatPackage.energy (flatPackage.reactivity .AUTO) S :=
    .constructed flat_physical (by simp) hS
  have hP : 0 < 2 * S.totalPower flatPackage.energy := by positivity
  have hf : 2 * S.totalPower flatPackage.energy / S.totalPower flatPackage.energy = 2 := by field_simp
  refine ⟨S, ?_, ?_, ?_⟩
  · obtain ⟨steps, h⟩ := C97_undisturbed flatPackage exTwo [(1, 500)] 0 (by simp) hr.reachable hst
      (fun r t => (.ok (r, t) : Except Err (Reaction × ℝ)))
    exact ⟨steps, fun sched => (h sched).2⟩
  · obtain ⟨rings, steps, h1, h2⟩ := C97_bounded flatPackage exTwo [(1, 500)] [] 0 _ hP (by simp) (by simp) hr hst hp
      (fun r t => (.ok (r, t) : Except Err (Reaction × ℝ))) (fun r t => (r, t)) (fun _ _ _ _ _ => rfl)
    refine ⟨rings, steps, h1, fun sched hle => ?_⟩
    obtain ⟨rings', h3, h4⟩ := (h2 sched).2 hle
    rw [hf, max_eq_left (by norm_num : (1 / 2 : ℝ) ≤ 2)] at h4
    exact ⟨rings', h3, h4⟩
  · obtain ⟨sched, rings, rings', vals, -, h2, -, h4, h5⟩ := C97_mixed flatPackage exTwo 0 _ hP hr hst hp hrate
      (fun r t => (.ok (r, t) : Except Err (Reaction × ℝ))) (fun r t => (r, t)) (fun _ _ _ _ => rfl)
    exact ⟨sched, rings', vals, h2, h4, by rw [h5, hf]⟩

end
end TNS
