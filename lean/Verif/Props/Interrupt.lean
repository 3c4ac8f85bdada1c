import Verif.Model.Interrupt
import Verif.Props.Source
/-
C91: a normalisation that is interrupted.
-/

set_option autoImplicit false

namespace TNS
open Spec
section
variable {K : Type} [Field K] [LinearOrder K] [IsStrictOrderedRing K] [FloorRing K]

/-- The dictionaries of a source, with strengths `f`, rates `g` and neutron rates `w`. -/
def Source.Keeps (s : Source K) (f : Reaction → List K) (g w : Reaction → K) : Prop :=
  s.sourceType.Nodup ∧
  s.strength = s.sourceType.map (fun r => (r, f r)) ∧
  s.numReactions = s.sourceType.map (fun r => (r, g r)) ∧
  s.numNeutrons = s.sourceType.map (fun r => (r, w r))

omit [IsStrictOrderedRing K] [FloorRing K] in
theorem modify_pairs {β : Type} (st : List Reaction) (f : Reaction → β) (r : Reaction) (g : β → β) :
    Dict.modify (st.map (fun r => (r, f r))) r g = st.map (fun q => (q, if q = r then g (f q) else f q)) := by
  unfold Dict.modify
  rw [List.map_map]
  apply List.map_congr_left
  intro q _
  simp only [Function.comp]
  split <;> rfl

omit [IsStrictOrderedRing K] [FloorRing K] in
/-- Any list of statements without repetition. -/
theorem foldl_loopStep (c : K) (l : List LoopStep) (hl : l.Nodup) (s : Source K) (f : Reaction → List K)
    (g w : Reaction → K) (h : s.Keeps f g w) :
    (l.foldl (Source.loopStep c) s).Keeps
      (fun r => if LoopStep.strength r ∈ l then (f r).map (· * c) else f r)
      (fun r => if LoopStep.reactions r ∈ l then g r * c else g r)
      (fun r => if LoopStep.neutrons r ∈ l then w r * c else w r) ∧
    l.foldl (Source.loopStep c) s = { l.foldl (Source.loopStep c) s with
      sourceType := s.sourceType, x := s.x, z := s.z, dVolume := s.dVolume, cellSideLength := s.cellSideLength,
      temperature := s.temperature } := by
  induction l generalizing s f g w with
  | nil => exact ⟨by simpa using h, rfl⟩
  | cons a l ih =>
    rw [List.nodup_cons] at hl
    obtain ⟨h0, h1, h2, h3⟩ := h
    rw [List.foldl_cons]
    cases a with
    | strength r =>
      have hk : (s.loopStep c (.strength r)).Keeps (fun q => if q = r then (f q).map (· * c) else f q) g w :=
        ⟨h0, by simp only [Source.loopStep]; rw [h1, modify_pairs], h2, h3⟩
      obtain ⟨a1, a2⟩ := ih hl.2 _ _ _ _ hk
      refine ⟨?_, a2⟩
      convert a1 using 2 with q
      · by_cases e : q = r
        · subst e; simp [hl.1]
        · simp [e]
      · simp
      · simp
    | reactions r =>
      have hk : (s.loopStep c (.reactions r)).Keeps f (fun q => if q = r then g q * c else g q) w :=
        ⟨h0, h1, by simp only [Source.loopStep]; rw [h2, modify_pairs], h3⟩
      obtain ⟨a1, a2⟩ := ih hl.2 _ _ _ _ hk
      refine ⟨?_, a2⟩
      convert a1 using 2 with q q
      · simp
      · by_cases e : q = r
        · subst e; simp [hl.1]
        · simp [e]
      · simp
    | neutrons r =>
      have hk : (s.loopStep c (.neutrons r)).Keeps f g (fun q => if q = r then w q * c else w q) :=
        ⟨h0, h1, h2, by simp only [Source.loopStep]; rw [h3, modify_pairs]⟩
      obtain ⟨a1, a2⟩ := ih hl.2 _ _ _ _ hk
      refine ⟨?_, a2⟩
      convert a1 using 2 with q q q
      · simp
      · simp
      · by_cases e : q = r
        · subst e; simp [hl.1]
        · simp [e]

theorem loopSteps_nodup (st : List Reaction) (h : st.Nodup) : (loopSteps st).Nodup := by
  unfold loopSteps
  rw [List.nodup_flatMap]
  refine ⟨fun r _ => by simp, ?_⟩
  refine h.imp fun {a b} hab => ?_
  simp only [Function.onFun, List.disjoint_left, List.mem_cons, List.not_mem_nil, or_false]
  rintro x (rfl | rfl | rfl) <;> simp [hab]

/-- Which statements have been executed. -/
theorem mem_take_loopSteps (st : List Reaction) (h : st.Nodup) (k i : ℕ) (r : Reaction) (hi : st[i]? = some r) :
    (LoopStep.strength r ∈ (loopSteps st).take k ↔ 3 * i < k) ∧
    (LoopStep.reactions r ∈ (loopSteps st).take k ↔ 3 * i + 1 < k) ∧
    (LoopStep.neutrons r ∈ (loopSteps st).take k ↔ 3 * i + 2 < k) := by
  induction st generalizing k i with
  | nil => simp at hi
  | cons a st ih =>
    rw [List.nodup_cons] at h
    have e : loopSteps (a :: st) = .strength a :: .reactions a :: .neutrons a :: loopSteps st := rfl
    have hno : ∀ x ∈ loopSteps st, x ≠ .strength a ∧ x ≠ .reactions a ∧ x ≠ .neutrons a := by
      intro x hx
      unfold loopSteps at hx
      obtain ⟨b, hb, hx⟩ := List.mem_flatMap.1 hx
      have hab : b ≠ a := fun e => h.1 (e ▸ hb)
      simp only [List.mem_cons, List.not_mem_nil, or_false] at hx
      rcases hx with rfl | rfl | rfl <;> simp [hab]
    rw [e]
    cases i with
    | zero =>
      obtain rfl : a = r := by simpa using hi
      rcases k with _ | _ | _ | k
      · simp
      · simp
      · simp
      · simp
    | succ i =>
      have hi' : st[i]? = some r := by simpa using hi
      have hra : r ≠ a := fun e => h.1 (e ▸ List.mem_of_getElem? hi')
      rcases k with _ | _ | _ | k
      · simp
      · simp [hra]
      · simp [hra]
        omega
      · obtain ⟨b1, b2, b3⟩ := ih h.2 k i hi'
        simp only [List.take_succ_cons, List.mem_cons, LoopStep.strength.injEq, hra, reduceCtorEq, false_or, b1,
          LoopStep.reactions.injEq, b2, LoopStep.neutrons.injEq, b3]
        refine ⟨?_, ?_, ?_⟩ <;> omega

omit [IsStrictOrderedRing K] [FloorRing K] in
theorem Source.Keeps.scale {s : Source K} {f : Reaction → List K} {g w : Reaction → K} (h : s.Keeps f g w) (c : K) :
    (s.sourceType.foldl (Source.scaleReaction c) s).sourceType = s.sourceType ∧
    (s.sourceType.foldl (Source.scaleReaction c) s).Keeps
      (fun r => (f r).map (· * c)) (fun r => g r * c) (fun r => w r * c) := by
  obtain ⟨h0, h1, h2, h3⟩ := h
  rw [foldl_scaleReaction,
      Dict.foldl_modify_all _ h0 _ _ (by rw [h1]; simp [Dict.keys]),
      Dict.foldl_modify_all _ h0 _ _ (by rw [h2]; simp [Dict.keys]),
      Dict.foldl_modify_all _ h0 _ _ (by rw [h3]; simp [Dict.keys])]
  refine ⟨rfl, h0, ?_, ?_, ?_⟩
  · simp [h1, List.map_map, Function.comp_def]
  · simp [h2, List.map_map, Function.comp_def]
  · simp [h3, List.map_map, Function.comp_def]

omit [IsStrictOrderedRing K] [FloorRing K] in
theorem Source.Keeps.totalPower {s : Source K} {f : Reaction → List K} {g w : Reaction → K} (h : s.Keeps f g w)
    (Q : Reaction → K) : s.totalPower Q = (s.sourceType.map (fun r => (f r).sum * Q r)).sum := by
  unfold Source.totalPower
  refine congrArg List.sum (List.map_congr_left fun r hr => ?_)
  rw [h.2.1]
  simp [Dict.getD, Dict.get?_map_pair, hr, List.sum_map_mul_right]

omit [IsStrictOrderedRing K] [FloorRing K] in
theorem Source.Keeps.get? {s : Source K} {f : Reaction → List K} {g w : Reaction → K} (h : s.Keeps f g w)
    {r : Reaction} (hr : r ∈ s.sourceType) :
    s.strength.get? r = some (f r) ∧ s.numReactions.get? r = some (g r) ∧ s.numNeutrons.get? r = some (w r) := by
  obtain ⟨h0, h1, h2, h3⟩ := h
  rw [h1, h2, h3]
  simp [Dict.get?_map_pair, hr]

/-- The state of a source whose normalisation was interrupted. -/
theorem upTo_keeps {pi : K} {Q : Reaction → K} {sv : Reaction → List K → Except Err (List K)} {s s' : Source K}
    (h : Reachable pi Q sv s) {P : K} {k : ℕ} (hn : s.normaliseUpTo Q P k = .ok s') :
    ∃ f : Reaction → List K, s.Keeps f (fun r => (f r).sum) (fun r => (f r).sum * (neutronYield r : K)) ∧
      s'.sourceType = s.sourceType ∧ s.totalPower Q ≠ 0 ∧ s'.Keeps
        (fun r => if LoopStep.strength r ∈ (loopSteps s.sourceType).take k then
          (f r).map (· * (P / s.totalPower Q)) else f r)
        (fun r => if LoopStep.reactions r ∈ (loopSteps s.sourceType).take k then
          (f r).sum * (P / s.totalPower Q) else (f r).sum)
        (fun r => if LoopStep.neutrons r ∈ (loopSteps s.sourceType).take k then
          (f r).sum * (neutronYield r : K) * (P / s.totalPower Q) else (f r).sum * (neutronYield r : K)) ∧
      s' = { s' with
        sourceType := s.sourceType, x := s.x, z := s.z, dVolume := s.dVolume, cellSideLength := s.cellSideLength,
        temperature := s.temperature } := by
  obtain ⟨f, h0, h1, h2, h3⟩ := reachable_closed h
  unfold Source.normaliseUpTo at hn
  split_ifs at hn with g1 g2
  obtain rfl := Except.ok.inj hn
  have hk : s.Keeps f (fun r => (f r).sum) (fun r => (f r).sum * (neutronYield r : K)) := ⟨h0, h1, h2, h3⟩
  obtain ⟨a1, a2⟩ := foldl_loopStep (P / s.totalPower Q) ((loopSteps s.sourceType).take k)
    ((loopSteps_nodup _ h0).sublist (List.take_sublist _ _)) s _ _ _ hk
  exact ⟨f, hk, by rw [a2], g2, a1, a2⟩

/-- A history of normalisations multiplies everything by one number. -/
theorem history_keeps {Q : Reaction → K} {s s' : Source K} {f : Reaction → List K} {g w : Reaction → K}
    (h : s.Keeps f g w) (Ps : List K) (hn : s.normalises Q Ps = .ok s') :
    ∃ d, s'.sourceType = s.sourceType ∧
      s'.Keeps (fun r => (f r).map (· * d)) (fun r => g r * d) (fun r => w r * d) := by
  induction Ps generalizing s f g w with
  | nil =>
    obtain rfl : s = s' := Except.ok.inj hn
    exact ⟨1, rfl, by simpa using h⟩
  | cons P Ps ih =>
    unfold Source.normalises at hn
    rw [List.foldlM_cons] at hn
    cases e : s.normalise Q P with
    | error x => rw [e] at hn; simp [Bind.bind, Except.bind] at hn
    | ok s1 =>
      rw [e] at hn
      obtain ⟨_, _, rfl⟩ := (Source.normalise_ok_iff Q P s s1).1 e
      obtain ⟨a1, a2⟩ := h.scale (P / s.totalPower Q)
      obtain ⟨d, b1, b2⟩ := ih a2 hn
      refine ⟨P / s.totalPower Q * d, b1.trans a1, ?_⟩
      simpa [List.map_map, Function.comp_def, mul_assoc] using b2

/-- C91.  An interrupted normalisation has multiplied the strengths of the first channels by the factor (requested
power / power), of the others not, and likewise reaction and neutron rates: the strengths of channel number `i` once
`3 i` statements are over, its reaction rate one statement later, its neutron rate two later. Nothing else changes. -/
theorem C91_state {pi : K} {Q : Reaction → K} {sv : Reaction → List K → Except Err (List K)} {s : Source K}
    (h : Reachable pi Q sv s) (hp : s.totalPower Q ≠ 0) (P : K) (k : ℕ) :
    ∃ s', s.normaliseUpTo Q P k = .ok s' ∧
      s'.sourceType = s.sourceType ∧ s'.x = s.x ∧ s'.z = s.z ∧ s'.dVolume = s.dVolume ∧
      s'.temperature = s.temperature ∧ s'.cellSideLength = s.cellSideLength ∧
      ∀ i r, s.sourceType[i]? = some r →
        s'.strength.get? r = (s.strength.get? r).map (fun cells =>
          cells.map (fun v => v * if 3 * i < k then P / s.totalPower Q else 1)) ∧
        s'.numReactions.get? r = (s.numReactions.get? r).map (fun v =>
          v * if 3 * i + 1 < k then P / s.totalPower Q else 1) ∧
        s'.numNeutrons.get? r = (s.numNeutrons.get? r).map (fun v =>
          v * if 3 * i + 2 < k then P / s.totalPower Q else 1) := by
  have hne : s.sourceType ≠ [] := by
    intro e; apply hp; simp [Source.totalPower, e]
  obtain ⟨s', hn⟩ : ∃ s', s.normaliseUpTo Q P k = .ok s' := by
    unfold Source.normaliseUpTo; rw [if_neg hne, if_neg hp]; exact ⟨_, rfl⟩
  obtain ⟨f, k1, k2, -, k3, k4⟩ := upTo_keeps h hn
  refine ⟨s', hn, k2, by rw [k4], by rw [k4], by rw [k4], by rw [k4], by rw [k4], fun i r hi => ?_⟩
  have hr := List.mem_of_getElem? hi
  obtain ⟨a1, a2, a3⟩ := k1.get? hr
  obtain ⟨b1, b2, b3⟩ := k3.get? (k2 ▸ hr)
  obtain ⟨m1, m2, m3⟩ := mem_take_loopSteps s.sourceType k1.1 k i r hi
  simp only [m1, m2, m3] at b1 b2 b3
  rw [a1, a2, a3, b1, b2, b3]
  refine ⟨?_, ?_, ?_⟩ <;> split_ifs <;> simp

omit [IsStrictOrderedRing K] [FloorRing K] in
/-- C91.  Once all statements are executed this is the uninterrupted normalisation. -/
theorem C91_finished {Q : Reaction → K} {s : Source K} (P : K) (k : ℕ) (hk : 3 * s.sourceType.length ≤ k) :
    s.normaliseUpTo Q P k = s.normalise Q P := by
  unfold Source.normaliseUpTo Source.normalise Source.normaliseRaw
  by_cases h1 : s.sourceType = []
  · simp [h1]
  by_cases h2 : s.totalPower Q = 0
  · simp [h1, h2]
  simp only [h1, h2, if_false, and_false]
  have hlen : (loopSteps s.sourceType).length = 3 * s.sourceType.length := by
    unfold loopSteps; simp [List.length_flatMap, mul_comm]
  rw [List.take_of_length_le (by omega)]
  have gen : ∀ (c : K) (l : List Reaction) (s : Source K),
      (loopSteps l).foldl (Source.loopStep c) s = l.foldl (Source.scaleReaction c) s := by
    intro c l
    induction l with
    | nil => intro s; rfl
    | cons a l ih =>
      intro s
      have e : loopSteps (a :: l) = .strength a :: .reactions a :: .neutrons a :: loopSteps l := rfl
      rw [e]
      simp only [List.foldl_cons]
      rw [ih]
      rfl
  rw [gen]

omit [LinearOrder K] [IsStrictOrderedRing K] [FloorRing K] in
theorem sum_smul (l : List K) (c : K) : (l.map (· * c)).sum = l.sum * c := by
  rw [List.sum_map_mul_right, List.map_id']

omit [FloorRing K] in
theorem sum_pos_of_scaled {l : List Reaction} (F G : Reaction → K) (h : ∀ r ∈ l, 0 ≤ F r)
    (hG : ∀ r ∈ l, 0 < F r → 0 < G r) (hG0 : ∀ r ∈ l, 0 ≤ G r) (hp : 0 < (l.map F).sum) : 0 < (l.map G).sum := by
  have hex : ∃ r ∈ l, 0 < F r := by
    by_contra hn
    push Not at hn
    have : (l.map F).sum = 0 := by
      apply List.sum_eq_zero
      intro x hx
      obtain ⟨r, hr, rfl⟩ := List.mem_map.1 hx
      exact le_antisymm (hn r hr) (h r hr)
    linarith
  obtain ⟨r, hr, hpos⟩ := hex
  have h1 := List.single_le_sum (l := l.map G) (by
    intro x hx
    obtain ⟨q, hq, rfl⟩ := List.mem_map.1 hx
    exact hG0 q hq) (G r) (List.mem_map_of_mem hr)
  exact lt_of_lt_of_le (hG r hr hpos) h1

/-- C91.  After an interrupted normalisation the source can be normalised again: whatever the point of interruption,
the power is still positive and the next normalisation reaches the power asked for. -/
theorem C91_again {pi : K} {Q : Reaction → K} {sv : Reaction → List K → Except Err (List K)} {s s' : Source K}
    (h : Reachable pi Q sv s) (hQ : ∀ r, 0 < Q r)
    (hs : ∀ r cells, s.strength.get? r = some cells → ∀ v ∈ cells, 0 ≤ v) (hp : 0 < s.totalPower Q) {P : K}
    (hP : 0 < P) {k : ℕ} (hn : s.normaliseUpTo Q P k = .ok s') (P' : K) :
    0 < s'.totalPower Q ∧ ∃ s'', s'.normalise Q P' = .ok s'' ∧ s''.totalPower Q = P' := by
  obtain ⟨f, k1, k2, -, k3, k4⟩ := upTo_keeps h hn
  have hc : 0 < P / s.totalPower Q := div_pos hP hp
  have f0 : ∀ r ∈ s.sourceType, 0 ≤ (f r).sum := fun r hr =>
    List.sum_nonneg (hs r (f r) (k1.get? hr).1)
  have hpos : 0 < s'.totalPower Q := by
    rw [k3.totalPower, k2]
    rw [k1.totalPower] at hp
    refine sum_pos_of_scaled (fun r => (f r).sum * Q r) _ (fun r hr => mul_nonneg (f0 r hr) (hQ r).le) ?_ ?_ hp
    · intro r hr hpr
      have : 0 < (f r).sum := pos_of_mul_pos_left hpr (hQ r).le
      refine mul_pos ?_ (hQ r)
      split_ifs
      · rw [List.sum_map_mul_right]; simpa using mul_pos this hc
      · exact this
    · intro r hr
      refine mul_nonneg ?_ (hQ r).le
      split_ifs
      · rw [List.sum_map_mul_right]; simpa using mul_nonneg (f0 r hr) hc.le
      · exact f0 r hr
  refine ⟨hpos, ?_⟩
  have hne : s'.sourceType ≠ [] := by
    intro e; apply hpos.ne'; simp [Source.totalPower, e]
  refine ⟨_, (Source.normalise_ok_iff Q P' s' _).2 ⟨hne, hpos.ne', rfl⟩, ?_⟩
  obtain ⟨a1, a2⟩ := k3.scale (P' / s'.totalPower Q)
  rw [a2.totalPower, a1]
  have e : s'.totalPower Q * (P' / s'.totalPower Q) = P' := by field_simp
  rw [k3.totalPower] at e hpos ⊢
  conv_rhs => rw [← e]
  rw [← List.sum_map_mul_right]
  refine congrArg List.sum (List.map_congr_left fun r _ => ?_)
  rw [List.sum_map_mul_right, List.map_id']
  ring

/-- C91.  But the ratio of the channels is lost: if the interruption comes after the strengths of channel `i` were
scaled and before those of channel `j`, then after any further normalisations the ratio of the two channels is still
wrong by the factor (requested power / power) of the interrupted call. -/
theorem C91_ratio {pi : K} {Q : Reaction → K} {sv : Reaction → List K → Except Err (List K)} {s s' s'' : Source K}
    (h : Reachable pi Q sv s) {P : K} {k : ℕ} (hn : s.normaliseUpTo Q P k = .ok s') {i j : ℕ} {a b : Reaction}
    (hi : s.sourceType[i]? = some a) (hj : s.sourceType[j]? = some b) (hik : 3 * i < k) (hkj : k ≤ 3 * j)
    (Ps : List K) (hh : s'.normalises Q Ps = .ok s'') :
    ∃ A B A'' B'', s.strength.get? a = some A ∧ s.strength.get? b = some B ∧
      s''.strength.get? a = some A'' ∧ s''.strength.get? b = some B'' ∧
      A''.sum * B.sum = (P / s.totalPower Q) * (A.sum * B''.sum) := by
  obtain ⟨f, k1, k2, -, k3, k4⟩ := upTo_keeps h hn
  obtain ⟨d, d1, d2⟩ := history_keeps k3 Ps hh
  have ha := List.mem_of_getElem? hi
  have hb := List.mem_of_getElem? hj
  have m1 := (mem_take_loopSteps s.sourceType k1.1 k i a hi).1
  have m2 := (mem_take_loopSteps s.sourceType k1.1 k j b hj).1
  have e1 := (d2.get? (d1 ▸ k2 ▸ ha)).1
  have e2 := (d2.get? (d1 ▸ k2 ▸ hb)).1
  rw [if_pos (m1.2 hik)] at e1
  rw [if_neg (fun hm => by have := m2.1 hm; omega)] at e2
  refine ⟨_, _, _, _, (k1.get? ha).1, (k1.get? hb).1, e1, e2, ?_⟩
  rw [sum_smul, sum_smul, sum_smul]
  ring

/-- C91.  And the bookkeeping of one channel is lost: after an interruption just behind the strengths of channel `i`,
and any further normalisations, its reaction rate times that factor is the sum of its strengths; one statement later
the same holds of the neutron rate.  All other channels keep their bookkeeping. -/
theorem C91_rates {pi : K} {Q : Reaction → K} {sv : Reaction → List K → Except Err (List K)} {s s' s'' : Source K}
    (h : Reachable pi Q sv s) {P : K} {k : ℕ} (hn : s.normaliseUpTo Q P k = .ok s') {i : ℕ} {r : Reaction}
    (hi : s.sourceType[i]? = some r) (Ps : List K) (hh : s'.normalises Q Ps = .ok s'') :
    ∃ cells num neu, s''.strength.get? r = some cells ∧ s''.numReactions.get? r = some num ∧
      s''.numNeutrons.get? r = some neu ∧
      (k = 3 * i + 1 → num * (P / s.totalPower Q) = cells.sum ∧
        neu * (P / s.totalPower Q) = cells.sum * (neutronYield r : K)) ∧
      (k = 3 * i + 2 → num = cells.sum ∧ neu * (P / s.totalPower Q) = cells.sum * (neutronYield r : K)) ∧
      (k ≠ 3 * i + 1 → k ≠ 3 * i + 2 → num = cells.sum ∧ neu = cells.sum * (neutronYield r : K)) := by
  obtain ⟨f, k1, k2, -, k3, k4⟩ := upTo_keeps h hn
  obtain ⟨d, d1, d2⟩ := history_keeps k3 Ps hh
  have hr := List.mem_of_getElem? hi
  obtain ⟨m1, m2, m3⟩ := mem_take_loopSteps s.sourceType k1.1 k i r hi
  obtain ⟨e1, e2, e3⟩ := d2.get? (d1 ▸ k2 ▸ hr)
  simp only [m1, m2, m3] at e1 e2 e3
  refine ⟨_, _, _, e1, e2, e3, ?_, ?_, ?_⟩
  · rintro rfl
    rw [if_pos (show 3 * i < 3 * i + 1 by omega), if_neg (show ¬ 3 * i + 1 < 3 * i + 1 by omega),
      if_neg (show ¬ 3 * i + 2 < 3 * i + 1 by omega), sum_smul, sum_smul]
    constructor <;> ring
  · rintro rfl
    rw [if_pos (show 3 * i < 3 * i + 2 by omega), if_pos (show 3 * i + 1 < 3 * i + 2 by omega),
      if_neg (show ¬ 3 * i + 2 < 3 * i + 2 by omega), sum_smul, sum_smul]
    constructor <;> ring
  · intro n1 n2
    by_cases hk : 3 * i < k
    · rw [if_pos hk, if_pos (show 3 * i + 1 < k by omega), if_pos (show 3 * i + 2 < k by omega), sum_smul, sum_smul]
      exact ⟨rfl, by ring⟩
    · rw [if_neg hk, if_neg (show ¬ 3 * i + 1 < k by omega), if_neg (show ¬ 3 * i + 2 < k by omega), sum_smul]
      exact ⟨rfl, by ring⟩

/-- C91.  With a single channel nothing is lost of the strengths: the next normalisation gives those it would have
given without the interrupted call. -/
theorem C91_single {pi : K} {Q : Reaction → K} {sv : Reaction → List K → Except Err (List K)} {s s' : Source K}
    (h : Reachable pi Q sv s) {r : Reaction} (hr : s.sourceType = [r]) {P : K} (hP : P ≠ 0) {k : ℕ}
    (hn : s.normaliseUpTo Q P k = .ok s') (P' : K) :
    ∃ t t', s'.normalise Q P' = .ok t ∧ s.normalise Q P' = .ok t' ∧ t.strength = t'.strength := by
  obtain ⟨f, k1, k2, k0, k3, k4⟩ := upTo_keeps h hn
  have e0 : s.totalPower Q = (f r).sum * Q r := by rw [k1.totalPower, hr]; simp
  have hc : P / s.totalPower Q ≠ 0 := div_ne_zero hP k0
  set c := P / s.totalPower Q
  obtain ⟨c', hc', hstr⟩ : ∃ c', c' ≠ 0 ∧ s'.strength = [(r, (f r).map (· * c'))] := by
    rw [k3.2.1, k2, hr]
    simp only [List.map_cons, List.map_nil]
    split_ifs
    · exact ⟨c, hc, rfl⟩
    · exact ⟨1, one_ne_zero, by simp⟩
  have e1 : s'.totalPower Q = (f r).sum * Q r * c' := by
    unfold Source.totalPower
    rw [k2, hr, hstr]
    simp [Dict.getD, Dict.get?, List.sum_map_mul_right, Function.comp_def]
    ring
  have hp' : s'.totalPower Q ≠ 0 := by rw [e1, ← e0]; exact mul_ne_zero k0 hc'
  refine ⟨_, _, (Source.normalise_ok_iff Q P' s' _).2 ⟨by rw [k2, hr]; simp, hp', rfl⟩,
    (Source.normalise_ok_iff Q P' s _).2 ⟨by rw [hr]; simp, k0, rfl⟩, ?_⟩
  have q1 := (k1.scale (P' / s.totalPower Q))
  have q2 := (k3.scale (P' / s'.totalPower Q))
  rw [q1.2.2.1, q2.2.2.1, q1.1, q2.1, k2, hr]
  have hf : s'.strength = [(r, if LoopStep.strength r ∈ (loopSteps s.sourceType).take k then (f r).map (· * c) else f r)] := by
    rw [k3.2.1, k2, hr]; rfl
  have hf2 := (List.cons.inj (hf.symm.trans hstr)).1
  have hf3 := (Prod.mk.inj hf2).2
  simp only [List.map_cons, List.map_nil, List.cons.injEq, Prod.mk.injEq, true_and, and_true]
  rw [← hr, hf3, List.map_map, e1, e0]
  apply List.map_congr_left
  intro x _
  have : (f r).sum * Q r ≠ 0 := e0 ▸ k0
  simp only [Function.comp]
  field_simp

end

/-- The hypotheses are met: the source of the other examples, interrupted after four statements, has a power between
the old and the new one. -/
example : (match Ex.src.normaliseUpTo Ex.Q (2 * Ex.src.totalPower Ex.Q) 4 with
    | .ok s' => decide (Ex.src.totalPower Ex.Q < s'.totalPower Ex.Q ∧
        s'.totalPower Ex.Q < 2 * Ex.src.totalPower Ex.Q)
    | .error _ => false) = true := by
  decide +kernel

end TNS
