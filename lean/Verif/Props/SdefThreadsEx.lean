import Verif.Props.SdefThreads
import Verif.Props.ExportThreadsEx
/-
C102: a concrete program.
-/

set_option autoImplicit false

namespace TNS
open Spec Classical
noncomputable section

/-- The hypotheses of `C102_undisturbed`, `C102_bounded` and `C102_mixed` are met: two sources are built; one thread writes
the SDEF files of the first, one normalises the second, and (in the last two statements) one normalises the first to the double
of its power.  The plasma has 10 keV everywhere; there is a schedule under which the file says 5 keV. -/
example : ∃ S : Source ℝ,
    (∃ steps : ℕ, ∀ sched : List (Option ℕ), steps ≤ sched.count none →
      ((SdefPool.start (startAll (World.run flatPackage exTwo) [(1, 500)]) 0).run flatPackage sched).result "out" =
        some (S.toSdef "out")) ∧
    (∃ (files : List (SdefFile ℝ)) (steps : ℕ), S.toSdef "out" = .ok files ∧
      ∀ sched : List (Option ℕ), steps ≤ sched.count none → ∃ files',
        ((SdefPool.start (startAll (World.run flatPackage exTwo) [(1, 500), (0, 2 * S.totalPower flatPackage.energy)]) 0).run
          flatPackage sched).result "out" = some (.ok files') ∧ List.Forall₂ (SameSdef 2) files files') ∧
    ∃ (sched : List (Option ℕ)) (files' : List (SdefFile ℝ)),
      ((SdefPool.start (startAll (World.run flatPackage exTwo) [(0, 2 * S.totalPower flatPackage.energy)]) 0).run
          flatPackage sched).result "out" = some (.ok files') ∧ ∃ a ∈ files', a.ionTemp = .fin 5 := by
  obtain ⟨S, hS, hp, hrate, hT, hty, hpos⟩ := flat_built
  have hst : (World.run flatPackage exTwo).source? 0 = some S.toXF :=
    C83_life flatPackage [.newTransport exPlasma, .newMap exMap] [.construct 0 0 (.member .DT) 1 none .AUTO]
      (t := 0) (k := 0) (arg := .member .DT) (L := 1) (power := none) (method := .AUTO) (tr := exPlasma) (fm := exMap)
      (S := S) rfl rfl hS (Or.inl rfl)
  have hr : PhysReachable flatPackage.pi flatPackage.energy (flatPackage.reactivity .AUTO) S :=
    .constructed flat_physical (by simp) hS
  have hP : 0 < 2 * S.totalPower flatPackage.energy := by positivity
  have hf : 2 * S.totalPower flatPackage.energy / S.totalPower flatPackage.energy = 2 := by field_simp
  refine ⟨S, ?_, ?_, ?_⟩
  · obtain ⟨steps, h⟩ := C102_undisturbed flatPackage exTwo [(1, 500)] 0 (by simp) hr.reachable hst "out"
    exact ⟨steps, fun sched => (h sched).2⟩
  · obtain ⟨files, steps, h1, h2⟩ := C102_bounded flatPackage exTwo [(1, 500)] [] 0 _ hP (by simp) (by simp) hr hst hp
      (by rw [hT]; simp) "out"
    refine ⟨files, steps, h1, fun sched hle => ?_⟩
    obtain ⟨files', h3, h4⟩ := (h2 sched).2 hle
    rw [hf, max_eq_left (by norm_num : (1 / 2 : ℝ) ≤ 2)] at h4
    exact ⟨files', h3, h4⟩
  · obtain ⟨sched, files, files', h1, h2, ⟨a, ha, har⟩, h4⟩ := C102_mixed flatPackage exTwo 0 _ hP hr hst hp .DT
      (by rw [hty]; simp) (by decide) hpos "out"
    refine ⟨sched, files', h2, ?_⟩
    have key : ∀ {R : SdefFile ℝ → SdefFile ℝ → Prop} {l l' : List (SdefFile ℝ)}, List.Forall₂ R l l' → ∀ a ∈ l,
        ∃ b ∈ l', R a b := by
      intro R l l' h
      induction h with
      | nil => simp
      | cons h1 _ ih =>
        intro a ha
        rcases List.mem_cons.1 ha with rfl | ha
        · exact ⟨_, List.mem_cons_self, h1⟩
        · obtain ⟨b, hb, hR⟩ := ih a ha
          exact ⟨b, List.mem_cons_of_mem _ hb, hR⟩
    obtain ⟨b, hb, -, -, -, -, hR⟩ := key h4 a ha
    obtain ⟨-, u, hu, hv⟩ := hR har
    refine ⟨b, hb, ?_⟩
    rcases (C30_source hr "out" files h1 a ha) with ⟨cells, rate, -, -, h0, hz, hb'⟩
    rcases h0.lt_or_eq with h0 | h0
    · obtain ⟨T, e1, -, e3⟩ := hb' h0
      rw [hu] at e1
      cases e1
      obtain ⟨l1, l2⟩ := e3 10 10 (by rw [hT]; simp) (by rw [hT]; simp)
      rw [hv, hf, le_antisymm l2 l1]
      norm_num
    · rw [hz h0.symm] at hu; cases hu

end
end TNS
