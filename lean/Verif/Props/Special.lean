import Verif.Model.Special
import Verif.Props.Source
/-
Property C07: when normalisation leaves finite numbers.
-/

set_option autoImplicit false
set_option linter.unusedSectionVars false

namespace TNS
open Spec

section
variable {K : Type} [Field K] [LinearOrder K] [IsStrictOrderedRing K] [FloorRing K]

theorem Dict.get?_mapVal {α β γ : Type} [DecidableEq α] (d : Dict α β) (g : β → γ) (k : α) :
    Dict.get? (d.map (fun p => (p.1, g p.2))) k = (d.get? k).map g := by
  induction d with
  | nil => simp [get?]
  | cons a l ih =>
    unfold get? at ih ⊢
    by_cases h : a.1 = k
    · simp [h]
    · rw [List.map_cons, List.find?_cons_of_neg (by simpa using h), ih,
        List.find?_cons_of_neg (by simpa using h)]

theorem toXF_totalPower (s : Source K) (Q : Reaction → K) :
    s.toXF.totalPower (fun r => XF.fin (Q r)) = XF.fin (s.totalPower Q) := by
  unfold Source.totalPower
  have : ∀ r, ((s.toXF.strength.getD r []).map (· * XF.fin (Q r))).sum =
      XF.fin (((s.strength.getD r []).map (· * Q r)).sum) := by
    intro r
    have e : s.toXF.strength.getD r [] = (s.strength.getD r []).map XF.fin := by
      simp only [Source.toXF, Dict.getD, Dict.get?_mapVal s.strength (List.map XF.fin)]
      cases s.strength.get? r <;> rfl
    rw [e, ← XF.sum_fin, List.map_map, List.map_map]
    rfl
  simp only [this]
  rw [← XF.sum_fin, List.map_map]
  rfl

theorem foldl_scaleReaction_raw {F : Type} [Zero F] [Add F] [Mul F] [Div F] (c : F)
    (l : List Reaction) (s : Source F) :
    l.foldl (Source.scaleReaction c) s =
      { s with
        strength := l.foldl (fun d r => d.modify r (fun l => l.map (· * c))) s.strength
        numReactions := l.foldl (fun d r => d.modify r (· * c)) s.numReactions
        numNeutrons := l.foldl (fun d r => d.modify r (· * c)) s.numNeutrons } := by
  induction l generalizing s with
  | nil => rfl
  | cons a l ih => simp only [List.foldl_cons, ih, Source.scaleReaction]

theorem toXF_scale {s : Source K} {f : Reaction → List K} (hf : s.Closed f) (c : XF K) :
    s.toXF.sourceType.foldl (Source.scaleReaction c) s.toXF =
      { s.toXF with
        strength := s.strength.map (fun p => (p.1, p.2.map (fun v => XF.fin v * c)))
        numReactions := s.numReactions.map (fun p => (p.1, XF.fin p.2 * c))
        numNeutrons := s.numNeutrons.map (fun p => (p.1, XF.fin p.2 * c)) } := by
  obtain ⟨h0, h1, h2, h3⟩ := hf
  have k1 : ∀ k ∈ Dict.keys s.toXF.strength, k ∈ s.sourceType := by
    simp [Source.toXF, h1, Dict.keys]
  have k2 : ∀ k ∈ Dict.keys s.toXF.numReactions, k ∈ s.sourceType := by
    simp [Source.toXF, h2, Dict.keys]
  have k3 : ∀ k ∈ Dict.keys s.toXF.numNeutrons, k ∈ s.sourceType := by
    simp [Source.toXF, h3, Dict.keys]
  rw [foldl_scaleReaction_raw]
  have hst : s.toXF.sourceType = s.sourceType := rfl
  rw [hst, Dict.foldl_modify_all _ h0 _ _ k1, Dict.foldl_modify_all _ h0 _ _ k2,
    Dict.foldl_modify_all _ h0 _ _ k3]
  simp [Source.toXF, List.map_map, Function.comp_def]

/-- **C07**, non-zero power: numpy's computation is the exact one, in particular finite. -/
theorem C07_finite_when_power {pi : K} {Q : Reaction → K}
    {sv : Reaction → List K → Except Err (List K)} {s : Source K} (h : Reachable pi Q sv s)
    (hp : s.totalPower Q ≠ 0) (P : K) :
    ∃ s', s.normalise Q P = .ok s' ∧
      s.toXF.normaliseRaw (fun r => .fin (Q r)) (.fin P) = .ok s'.toXF := by
  obtain ⟨f, hf⟩ := reachable_closed h
  obtain ⟨s', h1, _⟩ := C03_normalise_reaches h hp P
  refine ⟨s', h1, ?_⟩
  obtain ⟨hne, _, rfl⟩ := (Source.normalise_ok_iff Q P s s').1 h1
  unfold Source.normaliseRaw
  have : ¬ s.toXF.sourceType = [] := hne
  rw [if_neg this, toXF_totalPower, XF.fin_div _ _ hp, toXF_scale hf, (hf.scale _).1]
  simp [Source.toXF, List.map_map, Function.comp_def]

theorem fin_mul_signedInf (v P : K) : XF.isFinite (XF.fin v * XF.signedInf P) = false := by
  show XF.isFinite (XF.mul _ _) = false
  unfold XF.signedInf
  split
  · rfl
  · split <;> simp only [XF.mul, XF.signedInf] <;> split_ifs <;> rfl

/-- **C07**, zero power: the call does not fail, and afterwards *no* strength, reaction rate or
neutron rate is finite. -/
theorem C07_zero_power {pi : K} {Q : Reaction → K}
    {sv : Reaction → List K → Except Err (List K)} {s : Source K} (h : Reachable pi Q sv s)
    (hne : s.sourceType ≠ []) (hp : s.totalPower Q = 0) (P : K) :
    ∃ s', s.toXF.normaliseRaw (fun r => .fin (Q r)) (.fin P) = .ok s' ∧
      s'.strength.keys = s.sourceType ∧
      (∀ r cells, s'.strength.get? r = some cells → ∀ v ∈ cells, v.isFinite = false) ∧
      (∀ r v, s'.numReactions.get? r = some v → v.isFinite = false) ∧
      (∀ r v, s'.numNeutrons.get? r = some v → v.isFinite = false) := by
  obtain ⟨f, hf⟩ := reachable_closed h
  refine ⟨_, if_neg (show ¬ s.toXF.sourceType = [] from hne), ?_⟩
  rw [toXF_totalPower, hp, XF.fin_div_zero, toXF_scale hf]
  refine ⟨?_, ?_, ?_, ?_⟩
  · simp [hf.2.1, Dict.keys, List.map_map, Function.comp_def]
  · intro r cells e v hv
    simp only [Dict.get?_mapVal s.strength (List.map (fun v => XF.fin v * XF.signedInf P)),
      Option.map_eq_some_iff] at e
    obtain ⟨c0, _, rfl⟩ := e
    obtain ⟨w, _, rfl⟩ := List.mem_map.1 hv
    exact fin_mul_signedInf w P
  · intro r v e
    simp only [Dict.get?_mapVal s.numReactions (fun v => XF.fin v * XF.signedInf P),
      Option.map_eq_some_iff] at e
    obtain ⟨c0, _, rfl⟩ := e
    exact fin_mul_signedInf c0 P
  · intro r v e
    simp only [Dict.get?_mapVal s.numNeutrons (fun v => XF.fin v * XF.signedInf P),
      Option.map_eq_some_iff] at e
    obtain ⟨c0, _, rfl⟩ := e
    exact fin_mul_signedInf c0 P

/-- **C07**, exact characterisation: for a source with at least one channel, all reaction rates
after `normalise_fusion_power(P)` are finite if and only if the power before was non-zero. -/
theorem C07_finite_iff {pi : K} {Q : Reaction → K}
    {sv : Reaction → List K → Except Err (List K)} {s : Source K} (h : Reachable pi Q sv s)
    (hne : s.sourceType ≠ []) (P : K) :
    ∃ s', s.toXF.normaliseRaw (fun r => .fin (Q r)) (.fin P) = .ok s' ∧
      ((∀ r v, s'.numReactions.get? r = some v → v.isFinite = true) ↔ s.totalPower Q ≠ 0) := by
  by_cases hp : s.totalPower Q = 0
  · obtain ⟨s', h1, _, _, h3, _⟩ := C07_zero_power h hne hp P
    refine ⟨s', h1, ⟨fun hall => ?_, fun hn => absurd hp hn⟩⟩
    obtain ⟨r, l, hl⟩ := List.exists_cons_of_ne_nil hne
    obtain ⟨f, hf⟩ := reachable_closed h
    have : ∃ v, s'.numReactions.get? r = some v := by
      have e : s.toXF.normaliseRaw (fun r => .fin (Q r)) (.fin P) = _ :=
        if_neg (show ¬ s.toXF.sourceType = [] from hne)
      rw [e, Except.ok.injEq, toXF_scale hf] at h1
      rw [← h1]
      apply Dict.get?_eq_some_of_mem_keys
      simp [Dict.keys, hf.2.2.1, hl, Function.comp_def]
    obtain ⟨v, hv⟩ := this
    have a := h3 r v hv
    rw [hall r v hv] at a
    cases a
  · obtain ⟨s', h1, h2⟩ := C07_finite_when_power h hp P
    refine ⟨_, h2, ⟨fun _ => hp, fun _ r v e => ?_⟩⟩
    simp only [Source.toXF, Dict.get?_mapVal s'.numReactions XF.fin, Option.map_eq_some_iff] at e
    obtain ⟨w, _, rfl⟩ := e
    rfl

/-- **C07**, no channel: `ZeroDivisionError`. -/
theorem C07_no_channel (s : Source K) (Q : Reaction → K) (P : K) (h : s.sourceType = []) :
    s.toXF.normaliseRaw (fun r => .fin (Q r)) (.fin P) = .error .zeroDivisionError :=
  if_pos h

/-- **C07**, how a user gets there: normalising to zero power and then to any other power. -/
theorem C07_after_zero {pi : K} {Q : Reaction → K}
    {sv : Reaction → List K → Except Err (List K)} {s : Source K} (h : Reachable pi Q sv s)
    (hp : s.totalPower Q ≠ 0) (P : K) :
    ∃ s0, s.normalise Q 0 = .ok s0 ∧ ∃ s1,
      s0.toXF.normaliseRaw (fun r => .fin (Q r)) (.fin P) = .ok s1 ∧
      s1.strength.keys = s.sourceType ∧
      ∀ r cells, s1.strength.get? r = some cells → ∀ v ∈ cells, v.isFinite = false := by
  obtain ⟨s0, h1, h2⟩ := C03_normalise_reaches h hp 0
  have hst : s0.sourceType = s.sourceType := by
    obtain ⟨c, _, _, _, _, _, _, _, e, _⟩ := C06_one_factor h h1
    exact e
  have hne : s0.sourceType ≠ [] := by
    rw [hst]; exact ((Source.normalise_ok_iff Q 0 s s0).1 h1).1
  obtain ⟨s1, e1, e2, e3, _⟩ := C07_zero_power (Reachable.normalised h h1) hne h2 P
  exact ⟨s0, h1, s1, e1, by rw [e2, hst], e3⟩

/-! ### A source that has lost its numbers never gets them back -/

theorem nonfinite_mul (a b : XF K) (h : a.isFinite = false) : XF.isFinite (a * b) = false := by
  show XF.isFinite (XF.mul a b) = false
  cases a <;> cases b <;> simp [XF.isFinite] at h <;> simp only [XF.mul, XF.signedInf] <;> (try split_ifs) <;> rfl

/-- No strength and no rate is finite. -/
def Source.Lost (s : Source (XF K)) : Prop :=
  (∀ p ∈ s.strength, ∀ v ∈ p.2, v.isFinite = false) ∧
  (∀ p ∈ s.numReactions, p.2.isFinite = false) ∧ (∀ p ∈ s.numNeutrons, p.2.isFinite = false)

theorem modify_mem {α β : Type} [DecidableEq α] (d : Dict α β) (k : α) (f : β → β) (P : β → Prop)
    (hf : ∀ b, P b → P (f b)) (h : ∀ p ∈ d, P p.2) : ∀ p ∈ d.modify k f, P p.2 := by
  intro p hp
  unfold Dict.modify at hp
  obtain ⟨q, hq, rfl⟩ := List.mem_map.1 hp
  split_ifs
  · exact hf _ (h q hq)
  · exact h q hq

theorem lost_scale (c : XF K) (r : Reaction) (s : Source (XF K)) (h : s.Lost) :
    (Source.scaleReaction c s r).Lost := by
  obtain ⟨h1, h2, h3⟩ := h
  refine ⟨modify_mem _ _ _ (fun l => ∀ v ∈ l, XF.isFinite v = false) ?_ h1,
    modify_mem _ _ _ (fun v => XF.isFinite v = false) (fun b hb => nonfinite_mul _ _ hb) h2,
    modify_mem _ _ _ (fun v => XF.isFinite v = false) (fun b hb => nonfinite_mul _ _ hb) h3⟩
  intro l hl v hv
  obtain ⟨w, hw, rfl⟩ := List.mem_map.1 hv
  exact nonfinite_mul _ _ (hl w hw)

theorem lost_normalise (Q : Reaction → XF K) (P : XF K) (s s' : Source (XF K)) (h : s.Lost)
    (e : s.normaliseRaw Q P = .ok s') : s'.Lost := by
  unfold Source.normaliseRaw at e
  split_ifs at e
  obtain rfl := Except.ok.inj e
  clear e
  rename_i hne
  clear hne
  generalize P / s.totalPower Q = c
  generalize s.sourceType = l
  induction l generalizing s with
  | nil => exact h
  | cons r l ih => exact ih _ (lost_scale c r s h)

/-- **C07**, no recovery: after a normalisation at zero power, every further sequence of
`normalise_fusion_power` calls, with whatever powers, leaves every strength and every rate not finite. -/
theorem C07_never_recovers {pi : K} {Q : Reaction → K}
    {sv : Reaction → List K → Except Err (List K)} {s : Source K} (h : Reachable pi Q sv s)
    (hne : s.sourceType ≠ []) (hp : s.totalPower Q = 0) (P : K) (Ps : List (XF K)) :
    ∃ s0 s', s.toXF.normaliseRaw (fun r => .fin (Q r)) (.fin P) = .ok s0 ∧
      Ps.foldlM (fun s P => s.normaliseRaw (fun r => XF.fin (Q r)) P) s0 = .ok s' ∧
      s'.sourceType = s.sourceType ∧
      (∀ p ∈ s'.strength, ∀ v ∈ p.2, v.isFinite = false) ∧
      (∀ p ∈ s'.numReactions, p.2.isFinite = false) ∧ (∀ p ∈ s'.numNeutrons, p.2.isFinite = false) := by
  obtain ⟨f, hf⟩ := reachable_closed h
  have base : s.toXF.normaliseRaw (fun r => .fin (Q r)) (.fin P) = .ok _ :=
    if_neg (show ¬ s.toXF.sourceType = [] from hne)
  have lost : ∀ s0, s.toXF.normaliseRaw (fun r => .fin (Q r)) (.fin P) = .ok s0 →
      s0.Lost ∧ s0.sourceType = s.sourceType := by
    intro s0 e
    rw [base] at e
    obtain rfl := Except.ok.inj e
    rw [toXF_totalPower, hp, XF.fin_div_zero, toXF_scale hf]
    refine ⟨⟨?_, ?_, ?_⟩, rfl⟩
    · intro p hq v hv
      obtain ⟨q, -, rfl⟩ := List.mem_map.1 hq
      obtain ⟨w, -, rfl⟩ := List.mem_map.1 hv
      exact fin_mul_signedInf w P
    · intro p hq
      obtain ⟨q, -, rfl⟩ := List.mem_map.1 hq
      exact fin_mul_signedInf _ P
    · intro p hq
      obtain ⟨q, -, rfl⟩ := List.mem_map.1 hq
      exact fin_mul_signedInf _ P
  have step : ∀ (Ps : List (XF K)) (s0 : Source (XF K)), s0.Lost → s0.sourceType = s.sourceType →
      ∃ s', Ps.foldlM (fun s P => s.normaliseRaw (fun r => XF.fin (Q r)) P) s0 = .ok s' ∧
        s'.sourceType = s.sourceType ∧ s'.Lost := by
    intro Ps
    induction Ps with
    | nil => intro s0 h1 h2; exact ⟨s0, rfl, h2, h1⟩
    | cons P' Ps ih =>
      intro s0 h1 h2
      have e : s0.normaliseRaw (fun r => XF.fin (Q r)) P' =
          .ok (s0.sourceType.foldl (Source.scaleReaction (P' / s0.totalPower (fun r => XF.fin (Q r)))) s0) :=
        if_neg (by rw [h2]; exact hne)
      have h3 := lost_normalise _ _ _ _ h1 e
      have h4 : (s0.sourceType.foldl
          (Source.scaleReaction (P' / s0.totalPower (fun r => XF.fin (Q r)))) s0).sourceType =
          s.sourceType := by
        rw [foldl_scaleReaction_raw]
        exact h2
      obtain ⟨s', a, b, c⟩ := ih _ h3 h4
      refine ⟨s', ?_, b, c⟩
      rw [List.foldlM_cons, e]
      exact a
  obtain ⟨l0, t0⟩ := lost _ base
  obtain ⟨s', a, b, c⟩ := step Ps _ l0 t0
  exact ⟨_, s', base, a, b, c⟩

end

/-! The example source of `Verif.Props.Source` meets the hypotheses; a plasma without tritium and a
D-T source is a constructed source with zero power. -/
namespace Ex

example : Reachable 3 Q sv src ∧ src.totalPower Q ≠ 0 ∧ src.sourceType ≠ [] :=
  ⟨src_reachable, by rw [src_power]; norm_num, by decide⟩

def noTritium : TransportView ℚ := { transport with tritium := fun _ => .ok 0 }

example : ∃ s, Source.init 3 Q sv noTritium flux (.str "D-T") (1/2) none = .ok s ∧
    s.sourceType ≠ [] ∧ s.totalPower Q = 0 ∧ s.x ≠ [] := by
  have : parseSourceType (.str "D-T") = .ok [.DT] := by
    simp only [parseSourceType, finish_eq_filter]; decide +kernel
  refine ⟨{ src with
      sourceType := [.DT], strength := [(.DT, List.replicate 9 0)]
      numReactions := [(.DT, 0)], numNeutrons := [(.DT, 0)] }, ?_, ?_⟩
  · simp only [Source.init, this]; decide +kernel
  · decide +kernel

end Ex
end TNS
