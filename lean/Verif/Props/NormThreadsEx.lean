import Verif.Props.NormThreads
/-
C92: concrete programs.
-/

set_option autoImplicit false

namespace TNS
open Spec Classical
noncomputable section

/-- A flux map with one cell inside. -/
def exMap : FluxMapView ℝ :=
  { psiNorm := fun _ _ => 0, lcfsX := [3], lcfsZ := [0], inside := fun p => decide (p = (3, 0)), oX := 3, oZ := 0 }

theorem exMap_points : samplePoints exMap.lcfsX exMap.lcfsZ exMap.inside exMap.oX exMap.oZ 1 = [(3, 0)] := by
  have c1 : ⌈(5 - (3 - 2 * 1 + (0 - 1 / 2 * 1)) : ℝ) / 1⌉ = 5 := by rw [Int.ceil_eq_iff]; norm_num
  have c2 : ⌈(2 - (0 - 2 * 1 + (0 - 1 / 2 * 1)) : ℝ) / 1⌉ = 5 := by rw [Int.ceil_eq_iff]; norm_num
  have g1 : gridAxis [3] (3 : ℝ) 1 = [1, 2, 3, 4, 5] := by
    have m : pyMod (3 - (3 - 2 * 1) : ℝ) 1 = 0 := by
      unfold pyMod; norm_num
    simp only [gridAxis, npMin, npMax, List.foldl_nil, arange, m]
    rw [show (3 + 2 * 1 : ℝ) = 5 by norm_num, c1]
    simp [List.range_succ]; norm_num
  have g2 : gridAxis [0] (0 : ℝ) 1 = [-2, -1, 0, 1, 2] := by
    have m : pyMod (0 - (0 - 2 * 1) : ℝ) 1 = 0 := by
      unfold pyMod; norm_num
    simp only [gridAxis, npMin, npMax, List.foldl_nil, arange, m]
    rw [show (0 + 2 * 1 : ℝ) = 2 by norm_num, c2]
    simp [List.range_succ]; norm_num
  unfold samplePoints exMap
  simp only [g1, g2, meshPoints]
  simp

theorem exPlasma_core (c : ℝ) : parabolicValue c 1 2 0 = c := by
  unfold parabolicValue clip
  simp

/-- The source built from the parabolic plasma on this map has one cell and positive power. -/
theorem ex_built : ∃ S, built exPackage exPlasma exMap (.member .DT) 1 .AUTO = .ok S ∧ S.sourceType = [.DT] ∧
    S.totalPower exPackage.energy ≠ 0 := by
  unfold built Source.init
  have hparse : parseSourceType (.member .DT) = .ok [.DT] := by decide +kernel
  have hs : sampleSpace2d exPackage.pi exMap.lcfsX exMap.lcfsZ exMap.inside exMap.oX exMap.oZ 1 =
      ⟨[3], [0], [2 * 3 * 3 * 1 ^ 2]⟩ := by
    unfold sampleSpace2d
    rw [exMap_points]
    simp [cellVolume, exPackage]
  have hv : ∀ p : Profile, ∀ c, p.kind = .parabolic c 1 2 → p.scale = 1 → p.value 0 = .ok c := by
    intro p c h1 h2
    unfold Profile.value
    rw [h1, h2]
    simp [exPlasma_core]
  have v1 : exPlasma.view.temperature 0 = .ok 10 := hv exPlasma.temperature 10 rfl rfl
  have v2 : exPlasma.view.deuterium 0 = .ok 1 := hv exPlasma.deuterium 1 rfl rfl
  have v3 : exPlasma.view.tritium 0 = .ok 1 := hv exPlasma.tritium 1 rfl rfl
  have v4 : exPlasma.view.helium3 0 = .ok 0 := hv exPlasma.helium3 0 rfl rfl
  have hz : List.zipWith exMap.psiNorm [3] [0] = [0] := rfl
  have m1 : ∀ (g : ℝ → Except Err ℝ) (c : ℝ), g 0 = .ok c → [(0 : ℝ)].mapM g = .ok [c] := by
    intro g c h
    rw [List.mapM_cons, h]
    rfl
  simp only [hparse, Bind.bind, Except.bind, hs, hz, m1 _ _ v1, m1 _ _ v2, m1 _ _ v3, m1 _ _ v4]
  refine ⟨_, rfl, rfl, ?_⟩
  simp [Source.totalPower, Dict.getD, Dict.get?, Dict.set, exPackage, Reaction.DT, pairDensity]

/-- The program that builds two sources from it. -/
def exTwo : List Op := [.newTransport exPlasma, .newMap exMap, .construct 0 0 (.member .DT) 1 none .AUTO,
  .construct 0 0 (.member .DT) 1 none .AUTO]

theorem exTwo_first : ∃ S, built exPackage exPlasma exMap (.member .DT) 1 .AUTO = .ok S ∧ S.sourceType = [.DT] ∧
    S.totalPower exPackage.energy ≠ 0 ∧ (World.run exPackage exTwo).source? 0 = some S.toXF := by
  obtain ⟨S, hS, hst, hp⟩ := ex_built
  refine ⟨S, hS, hst, hp, ?_⟩
  exact C83_life exPackage [.newTransport exPlasma, .newMap exMap] [.construct 0 0 (.member .DT) 1 none .AUTO]
    (t := 0) (k := 0) (arg := .member .DT) (L := 1) (power := none) (method := .AUTO) (tr := exPlasma) (fm := exMap)
    (S := S) rfl rfl hS (Or.inl rfl)

theorem construct_keeps (pkg : Package) (w : World) (t k : ℕ) (arg : SourceArg) (L : ℝ) (power : Option ℝ)
    (method : ReactivityMethod) :
    (w.step pkg (.construct t k arg L power method)).profiles = w.profiles ∧
    (w.step pkg (.construct t k arg L power method)).transports = w.transports ∧
    (w.step pkg (.construct t k arg L power method)).maps = w.maps := by
  simp only [World.step, World.exec]
  cases w.transports[t]?.bind (TransportRef.read w.profiles) with
  | none => exact ⟨rfl, rfl, rfl⟩
  | some tr =>
    cases w.maps[k]? with
    | none => exact ⟨rfl, rfl, rfl⟩
    | some fm =>
      simp only [Bind.bind, Except.bind]
      cases SourceRef.init pkg w.arrays tr.view fm arg L power method with
      | error e => exact ⟨rfl, rfl, rfl⟩
      | ok st => exact ⟨rfl, rfl, rfl⟩

theorem ex_step (w : World) (hw : w.Inv) (htr : transportNow w 0 = some exPlasma) (hfm : w.maps[0]? = some exMap) :
    (w.step exPackage (.construct 0 0 (.member .DT) 1 none .AUTO)).sources.length = w.sources.length + 1 := by
  obtain ⟨S, hS, -⟩ := ex_built
  have H := step_construct exPackage w hw (t := 0) (k := 0) (arg := .member .DT) (L := 1) (power := none)
    (method := .AUTO) htr hfm
  rw [hS] at H
  simp only [true_or, if_true] at H
  obtain ⟨w', h1, h2, -⟩ := H
  unfold World.step
  rw [h1]
  exact h2

theorem exTwo_length : (World.run exPackage exTwo).sources.length = 2 := by
  set w := World.run exPackage [.newTransport exPlasma, .newMap exMap] with hw
  set w1 := w.step exPackage (.construct 0 0 (.member .DT) 1 none .AUTO) with hw1
  have e : World.run exPackage exTwo = w1.step exPackage (.construct 0 0 (.member .DT) 1 none .AUTO) := rfl
  have i0 : w.Inv := inv_run _ _
  obtain ⟨k1, k2, k3⟩ := construct_keeps exPackage w 0 0 (.member .DT) 1 none .AUTO
  have l1 : w1.sources.length = 1 := ex_step w i0 rfl rfl
  rw [e, ex_step w1 (step_old exPackage w i0 _).1 ?_ ?_, l1]
  · unfold transportNow; rw [k2, k1]; rfl
  · rw [k3]; rfl

/-- The hypotheses of `C92_independent` are met: two threads normalise the two sources, the scheduler switching after
every single load and store. -/
example : ∃ N : ℕ, ∀ j,
    ((startAll (World.run exPackage exTwo) [(0, 500), (1, 300)]).run exPackage
      (List.replicate N [0, 1]).flatten).world.source? j =
    (World.run exPackage (exTwo ++ [.normalise 0 500, .normalise 1 300])).source? j := by
  have hex : ∀ c ∈ [((0 : ℕ), (500 : ℝ)), (1, 300)], c.1 < (World.run exPackage exTwo).sources.length := by
    rw [exTwo_length]; simp
  have hd : ([((0 : ℕ), (500 : ℝ)), (1, 300)].map Prod.fst).Nodup := by simp
  obtain ⟨N, hN⟩ := C92_progress exPackage exTwo _ hd hex
  refine ⟨N, (C92_independent exPackage exTwo _ hd hex _ (hN _ ?_)).1⟩
  intro t ht
  have h2 : t = 0 ∨ t = 1 := by simp at ht; omega
  rcases h2 with rfl | rfl <;> simp [List.count_flatten]

/-- The hypotheses of `C92_scaled_twice` and `C92_lost_update` are met: two threads normalise source 0 to 500 and to
the triple of its power. -/
example : ∃ S : Source ℝ, (∃ (sched : List ℕ) (S' : Source ℝ), S'.totalPower exPackage.energy = 500 * (3 * S.totalPower exPackage.energy) /
      S.totalPower exPackage.energy ∧
      ((startAll (World.run exPackage exTwo) [(0, 500), (0, 3 * S.totalPower exPackage.energy)]).run exPackage
        sched).world.source? 0 = some S'.toXF) ∧
    (∃ (sched : List ℕ) (S' : Source ℝ) (cells' : List ℝ) (num' : ℝ), S'.strength.get? .DT = some cells' ∧
      S'.numReactions.get? .DT = some num' ∧ num' ≠ cells'.sum ∧
      ((startAll (World.run exPackage exTwo) [(0, 500), (0, 3 * S.totalPower exPackage.energy)]).run exPackage
        sched).world.source? 0 = some S'.toXF) := by
  obtain ⟨S, hS, hst, hp, h0⟩ := exTwo_first
  have hr : Reachable exPackage.pi exPackage.energy (exPackage.reactivity .AUTO) S := .constructed hS
  refine ⟨S, ?_, ?_⟩
  · obtain ⟨sched, S', -, h2, h3, -⟩ := C92_scaled_twice exPackage exTwo 0 hr h0 hp 500
      (3 * S.totalPower exPackage.energy) (mul_ne_zero (by norm_num) hp)
    exact ⟨sched, S', h2, h3⟩
  · obtain ⟨sched, S', -, cells', num', -, h2, h3, -, -, h4, h5, -⟩ := C92_lost_update exPackage exTwo 0 hr h0 hp hst 500
      (3 * S.totalPower exPackage.energy) (by norm_num) (by
        intro e
        apply hp
        linarith)
    exact ⟨sched, S', cells', num', h2, h3, h4, h5⟩

end
end TNS
