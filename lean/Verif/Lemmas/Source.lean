import Verif.Model.Source
import Verif.Lemmas.Dict
import Verif.Props.Reactions
import Mathlib.Algebra.BigOperators.Group.List.Basic
import Mathlib.Algebra.BigOperators.Ring.List
import Mathlib.Tactic.Ring
import Mathlib.Tactic.FieldSimp
/-
Loop lemmas for `TokamakNeutronSource`: closed forms of the constructor loop and of the
normalisation loop.
-/

set_option autoImplicit false

namespace TNS
variable {K : Type} [Field K]

omit [Field K] in
theorem parse_nodup {a : SourceArg} {l : List Reaction} (h : parseSourceType a = .ok l) :
    l.Nodup := by
  by_cases hu : Spec.Understood a
  · obtain ⟨l', h1, _, h2, _⟩ := C01_source_type a hu
    rw [h] at h1; cases h1; exact h2
  · have := C01_rejects a hu
    rw [h] at this; cases this

/-- Strength array of one reaction, as the constructor computes it. -/
def strengthOf (sv : Reaction → List K → Except Err (List K)) (d t h temp vol : List K)
    (r : Reaction) : Except Err (List K) := do
  let w ← densityWeightedReactivity sv temp d t h r
  .ok (List.zipWith (· * ·) w vol)

theorem foldlM_addReaction (sv : Reaction → List K → Except Err (List K)) (d t h : List K)
    (l : List Reaction) (hl : l.Nodup) (s0 s : Source K)
    (h1 : ∀ r ∈ l, r ∉ s0.strength.keys) (h2 : ∀ r ∈ l, r ∉ s0.numReactions.keys)
    (h3 : ∀ r ∈ l, r ∉ s0.numNeutrons.keys)
    (e : l.foldlM (Source.addReaction sv d t h) s0 = .ok s) :
    ∃ f : Reaction → List K,
      (∀ r ∈ l, strengthOf sv d t h s0.temperature s0.dVolume r = .ok (f r)) ∧
      s = { s0 with
        strength := s0.strength ++ l.map (fun r => (r, f r))
        numReactions := s0.numReactions ++ l.map (fun r => (r, (f r).sum))
        numNeutrons := s0.numNeutrons ++ l.map (fun r => (r, (f r).sum * (r.numNeutrons : K))) } := by
  induction l generalizing s0 with
  | nil =>
    simp only [List.foldlM_nil] at e
    cases e
    exact ⟨fun _ => [], by simp, by simp⟩
  | cons a l ih =>
    rw [List.foldlM_cons] at e
    cases ea : densityWeightedReactivity sv s0.temperature d t h a with
    | error x =>
      simp only [Source.addReaction, ea, Bind.bind, Except.bind] at e
      cases e
    | ok w =>
      have hadd : Source.addReaction sv d t h s0 a = .ok
          { s0 with
            strength := s0.strength ++ [(a, List.zipWith (· * ·) w s0.dVolume)]
            numReactions := s0.numReactions ++ [(a, (List.zipWith (· * ·) w s0.dVolume).sum)]
            numNeutrons := s0.numNeutrons ++
              [(a, (List.zipWith (· * ·) w s0.dVolume).sum * (a.numNeutrons : K))] } := by
        simp only [Source.addReaction, ea, Bind.bind, Except.bind]
        rw [Dict.set_of_not_mem _ _ _ (h1 a List.mem_cons_self),
          Dict.set_of_not_mem _ _ _ (h2 a List.mem_cons_self),
          Dict.set_of_not_mem _ _ _ (h3 a List.mem_cons_self)]
      rw [hadd] at e
      rw [List.nodup_cons] at hl
      have key : ∀ r ∈ l, r ≠ a := fun r hr e => hl.1 (e ▸ hr)
      obtain ⟨f, hf, hs⟩ := ih hl.2 _ (by
          intro r hr; simp only [Dict.keys_append, List.mem_append]
          rintro (hh | hh)
          · exact h1 r (List.mem_cons_of_mem _ hr) hh
          · simp [Dict.keys] at hh; exact key r hr hh) (by
          intro r hr; simp only [Dict.keys_append, List.mem_append]
          rintro (hh | hh)
          · exact h2 r (List.mem_cons_of_mem _ hr) hh
          · simp [Dict.keys] at hh; exact key r hr hh) (by
          intro r hr; simp only [Dict.keys_append, List.mem_append]
          rintro (hh | hh)
          · exact h3 r (List.mem_cons_of_mem _ hr) hh
          · simp [Dict.keys] at hh; exact key r hr hh) e
      refine ⟨fun r => if r = a then List.zipWith (· * ·) w s0.dVolume else f r, ?_, ?_⟩
      · intro r hr
        rcases List.mem_cons.1 hr with rfl | hr
        · simp [strengthOf, ea, Bind.bind, Except.bind]
        · simp only [key r hr, if_false]; exact hf r hr
      · rw [hs]
        have hmap : ∀ {γ : Type} (g : Reaction → List K → γ),
            l.map (fun r => (r, g r (if r = a then List.zipWith (· * ·) w s0.dVolume else f r))) =
            l.map (fun r => (r, g r (f r))) := by
          intro γ g
          apply List.map_congr_left
          intro r hr
          simp [key r hr]
        have m1 := hmap (fun _ x => x)
        have m2 := hmap (fun _ x => x.sum)
        have m3 := hmap (fun r x => x.sum * (r.numNeutrons : K))
        simp only [List.map_cons, if_true, List.append_assoc, List.singleton_append, m1, m2, m3]

/-- The state part of the invariant: what a source's dictionaries look like, in closed form. -/
def Source.Closed (s : Source K) (f : Reaction → List K) : Prop :=
  s.sourceType.Nodup ∧
  s.strength = s.sourceType.map (fun r => (r, f r)) ∧
  s.numReactions = s.sourceType.map (fun r => (r, (f r).sum)) ∧
  s.numNeutrons = s.sourceType.map (fun r => (r, (f r).sum * (r.numNeutrons : K)))

theorem foldl_scaleReaction (c : K) (l : List Reaction) (s : Source K) :
    l.foldl (Source.scaleReaction c) s =
      { s with
        strength := l.foldl (fun d r => d.modify r (fun l => l.map (· * c))) s.strength
        numReactions := l.foldl (fun d r => d.modify r (· * c)) s.numReactions
        numNeutrons := l.foldl (fun d r => d.modify r (· * c)) s.numNeutrons } := by
  induction l generalizing s with
  | nil => rfl
  | cons a l ih => simp only [List.foldl_cons, ih, Source.scaleReaction]

theorem Source.Closed.scale {s : Source K} {f : Reaction → List K} (h : s.Closed f) (c : K) :
    s.sourceType.foldl (Source.scaleReaction c) s =
      { s with
        strength := s.strength.map (fun p => (p.1, p.2.map (· * c)))
        numReactions := s.numReactions.map (fun p => (p.1, p.2 * c))
        numNeutrons := s.numNeutrons.map (fun p => (p.1, p.2 * c)) } ∧
    (s.sourceType.foldl (Source.scaleReaction c) s).Closed (fun r => (f r).map (· * c)) := by
  obtain ⟨h0, h1, h2, h3⟩ := h
  have e : s.sourceType.foldl (Source.scaleReaction c) s =
      { s with
        strength := s.strength.map (fun p => (p.1, p.2.map (· * c)))
        numReactions := s.numReactions.map (fun p => (p.1, p.2 * c))
        numNeutrons := s.numNeutrons.map (fun p => (p.1, p.2 * c)) } := by
    rw [foldl_scaleReaction,
      Dict.foldl_modify_all _ h0 _ _ (by rw [h1]; simp [Dict.keys]),
      Dict.foldl_modify_all _ h0 _ _ (by rw [h2]; simp [Dict.keys]),
      Dict.foldl_modify_all _ h0 _ _ (by rw [h3]; simp [Dict.keys])]
  refine ⟨e, ?_⟩
  rw [e]
  have hs : ∀ l : List K, (l.map (· * c)).sum = l.sum * c := fun l => by
    rw [List.sum_map_mul_right]; simp
  refine ⟨h0, ?_, ?_, ?_⟩
  · simp [h1, List.map_map, Function.comp_def]
  · simp [h2, List.map_map, Function.comp_def, hs]
  · simp only [h3, List.map_map, Function.comp_def, hs]
    apply List.map_congr_left
    intro r _
    congr 1; ring

theorem Source.Closed.totalPower {s : Source K} {f : Reaction → List K} (h : s.Closed f)
    (Q : Reaction → K) :
    s.totalPower Q = (s.sourceType.map (fun r => (f r).sum * Q r)).sum := by
  unfold Source.totalPower
  congr 1
  apply List.map_congr_left
  intro r hr
  rw [h.2.1]
  simp [Dict.getD, Dict.get?_map_pair, hr, List.sum_map_mul_right]

theorem Source.Closed.scale_power {s : Source K} {f : Reaction → List K} (h : s.Closed f) (c : K)
    (Q : Reaction → K) :
    (s.sourceType.foldl (Source.scaleReaction c) s).totalPower Q = s.totalPower Q * c := by
  rw [(h.scale c).2.totalPower, h.totalPower, (h.scale c).1, ← List.sum_map_mul_right]
  congr 1
  apply List.map_congr_left
  intro r _
  rw [List.sum_map_mul_right]; simp; ring

section
variable [DecidableEq K]

theorem Source.normalise_ok_iff (Q : Reaction → K) (P : K) (s s' : Source K) :
    s.normalise Q P = .ok s' ↔ s.sourceType ≠ [] ∧ s.totalPower Q ≠ 0 ∧
      s' = s.sourceType.foldl (Source.scaleReaction (P / s.totalPower Q)) s := by
  unfold Source.normalise Source.normaliseRaw
  by_cases h : s.sourceType = []
  · simp [h]
  · by_cases h2 : s.totalPower Q = 0
    · simp [h, h2]
    · simp [h, h2, eq_comm]

end

section
variable [LinearOrder K] [IsStrictOrderedRing K] [FloorRing K]

/-- Decomposition of a successful construction without power normalisation. -/
theorem Source.init_none {pi : K} {Q : Reaction → K}
    {sv : Reaction → List K → Except Err (List K)} {tr : TransportView K} {fm : FluxMapView K}
    {arg : SourceArg} {L : K} {s : Source K}
    (h : Source.init pi Q sv tr fm arg L none = .ok s) :
    ∃ temp d t he : List K, ∃ f : Reaction → List K,
      let smp := sampleSpace2d pi fm.lcfsX fm.lcfsZ fm.inside fm.oX fm.oZ L
      let psi := List.zipWith fm.psiNorm smp.x smp.z
      parseSourceType arg = .ok s.sourceType ∧
      psi.mapM tr.temperature = .ok temp ∧ psi.mapM tr.deuterium = .ok d ∧
      psi.mapM tr.tritium = .ok t ∧ psi.mapM tr.helium3 = .ok he ∧
      s.x = smp.x ∧ s.z = smp.z ∧ s.dVolume = smp.dVolume ∧ s.cellSideLength = L ∧
      s.temperature = temp ∧
      s.Closed f ∧
      ∀ r ∈ s.sourceType, strengthOf sv d t he temp smp.dVolume r = .ok (f r) := by
  unfold Source.init at h
  simp only [Bind.bind, Except.bind] at h
  cases e1 : parseSourceType arg with
  | error x => rw [e1] at h; cases h
  | ok st =>
  rw [e1] at h; simp only at h
  revert h
  generalize hsmp : sampleSpace2d pi fm.lcfsX fm.lcfsZ fm.inside fm.oX fm.oZ L = smp
  generalize hpsi : List.zipWith fm.psiNorm smp.x smp.z = psi
  intro h
  cases e2 : psi.mapM tr.temperature with
  | error x => rw [e2] at h; cases h
  | ok temp =>
  rw [e2] at h; simp only at h
  cases e3 : psi.mapM tr.deuterium with
  | error x => rw [e3] at h; cases h
  | ok d =>
  rw [e3] at h; simp only at h
  cases e4 : psi.mapM tr.tritium with
  | error x => rw [e4] at h; cases h
  | ok t =>
  rw [e4] at h; simp only at h
  cases e5 : psi.mapM tr.helium3 with
  | error x => rw [e5] at h; cases h
  | ok he =>
  rw [e5] at h; simp only at h
  split at h
  · cases h
  · rename_i s1 e6
    cases h
    have hnd : st.Nodup := parse_nodup e1
    obtain ⟨f, hf, hs⟩ := foldlM_addReaction sv d t he st hnd _ s
      (by simp [Dict.keys]) (by simp [Dict.keys]) (by simp [Dict.keys]) e6
    refine ⟨temp, d, t, he, f, ?_⟩
    subst hs
    simp only [List.nil_append] at hf ⊢
    try rw [hpsi]
    exact ⟨trivial, e2, e3, e4, e5, trivial, trivial, trivial, trivial, trivial,
      ⟨hnd, rfl, rfl, rfl⟩, hf⟩

/-- A construction with a power is a construction without followed by a normalisation. -/
theorem Source.init_some {pi : K} {Q : Reaction → K}
    {sv : Reaction → List K → Except Err (List K)} {tr : TransportView K} {fm : FluxMapView K}
    {arg : SourceArg} {L P : K} {s : Source K}
    (h : Source.init pi Q sv tr fm arg L (some P) = .ok s) :
    ∃ s0, Source.init pi Q sv tr fm arg L none = .ok s0 ∧ s0.normalise Q P = .ok s := by
  unfold Source.init at h ⊢
  simp only [Bind.bind, Except.bind] at h ⊢
  split at h
  · cases h
  split at h
  · cases h
  split at h
  · cases h
  split at h
  · cases h
  split at h
  · cases h
  split at h
  · cases h
  · rename_i s1 e6
    exact ⟨s1, by simp_all, h⟩

end
end TNS
