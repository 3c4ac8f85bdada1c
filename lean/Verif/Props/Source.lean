import Verif.Spec.Source
import Verif.Lemmas.Source
import Mathlib.Algebra.Order.BigOperators.Group.List
import Mathlib.Tactic.Linarith
/-
Properties C03-C10 of the neutron source object.
-/

set_option autoImplicit false
set_option linter.unusedSectionVars false

namespace TNS
open Spec

section
variable {K : Type} [Field K] [LinearOrder K] [IsStrictOrderedRing K] [FloorRing K]

theorem closed_of_normalise {Q : Reaction → K} {P : K} {s s' : Source K} {f : Reaction → List K}
    (hf : s.Closed f) (h : s.normalise Q P = .ok s') :
    s'.Closed (fun r => (f r).map (· * (P / s.totalPower Q))) := by
  obtain ⟨_, _, rfl⟩ := (Source.normalise_ok_iff Q P s s').1 h
  exact (hf.scale _).2

theorem reachable_closed {pi : K} {Q : Reaction → K} {sv : Reaction → List K → Except Err (List K)}
    {s : Source K} (h : Reachable pi Q sv s) : ∃ f, s.Closed f := by
  induction h with
  | @constructed tr fm arg L power s h =>
    cases power with
    | none =>
      obtain ⟨_, _, _, _, f, hh⟩ := Source.init_none h
      exact ⟨f, hh.2.2.2.2.2.2.2.2.2.2.1⟩
    | some P =>
      obtain ⟨s0, h0, hn⟩ := Source.init_some h
      obtain ⟨_, _, _, _, f, hh⟩ := Source.init_none h0
      exact ⟨_, closed_of_normalise hh.2.2.2.2.2.2.2.2.2.2.1 hn⟩
  | normalised _ h ih =>
    obtain ⟨f, hf⟩ := ih
    exact ⟨_, closed_of_normalise hf h⟩

theorem numNeutrons_eq_yield (r : Reaction) : r.numNeutrons = neutronYield r := by
  rcases r with (_ | _ | _) | (_ | _) <;> rfl

/-- **C04.**  In every reachable state the three dictionaries have exactly the keys `source_type`
(in that order, without repetition); each reaction rate is the sum of the cell strengths and each
neutron rate is the reaction rate times the neutron yield. -/
theorem C04_bookkeeping {pi : K} {Q : Reaction → K} {sv : Reaction → List K → Except Err (List K)}
    {s : Source K} (h : Reachable pi Q sv s) :
    s.sourceType.Nodup ∧ s.strength.keys = s.sourceType ∧ s.numReactions.keys = s.sourceType ∧
      s.numNeutrons.keys = s.sourceType ∧
      (∀ r ∈ s.sourceType, ∃ cells, s.strength.get? r = some cells ∧
        s.numReactions.get? r = some cells.sum ∧
        s.numNeutrons.get? r = some (cells.sum * (neutronYield r : K))) ∧
      ∀ r, r ∉ s.sourceType → s.strength.get? r = none ∧ s.numReactions.get? r = none ∧
        s.numNeutrons.get? r = none := by
  obtain ⟨f, h0, h1, h2, h3⟩ := reachable_closed h
  refine ⟨h0, ?_, ?_, ?_, ?_, ?_⟩
  · simp [h1, Dict.keys, Function.comp_def]
  · simp [h2, Dict.keys, Function.comp_def]
  · simp [h3, Dict.keys, Function.comp_def]
  · intro r hr
    refine ⟨f r, ?_, ?_, ?_⟩
    · rw [h1, Dict.get?_map_pair, if_pos hr]
    · rw [h2, Dict.get?_map_pair, if_pos hr]
    · rw [h3, Dict.get?_map_pair, if_pos hr, numNeutrons_eq_yield]
  · intro r hr
    refine ⟨?_, ?_, ?_⟩
    · rw [h1, Dict.get?_map_pair, if_neg hr]
    · rw [h2, Dict.get?_map_pair, if_neg hr]
    · rw [h3, Dict.get?_map_pair, if_neg hr]

/-- **C03.**  If the power of a reachable source is non-zero, `normalise_fusion_power(P)` succeeds
and afterwards the total fusion power is `P`. -/
theorem C03_normalise_reaches {pi : K} {Q : Reaction → K}
    {sv : Reaction → List K → Except Err (List K)} {s : Source K} (h : Reachable pi Q sv s)
    (hp : s.totalPower Q ≠ 0) (P : K) :
    ∃ s', s.normalise Q P = .ok s' ∧ s'.totalPower Q = P := by
  obtain ⟨f, hf⟩ := reachable_closed h
  have hne : s.sourceType ≠ [] := by
    intro e; apply hp; simp [Source.totalPower, e]
  refine ⟨_, (Source.normalise_ok_iff Q P s _).2 ⟨hne, hp, rfl⟩, ?_⟩
  rw [hf.scale_power]
  field_simp

/-- **C03**, constructor form: a source constructed with `total_fusion_power=P` has power `P`. -/
theorem C03_constructed_with_power {pi : K} {Q : Reaction → K}
    {sv : Reaction → List K → Except Err (List K)} {tr : TransportView K} {fm : FluxMapView K}
    {arg : SourceArg} {L P : K} {s : Source K}
    (h : Source.init pi Q sv tr fm arg L (some P) = .ok s) : s.totalPower Q = P := by
  obtain ⟨s0, h0, hn⟩ := Source.init_some h
  obtain ⟨s', h1, h2⟩ := C03_normalise_reaches (Reachable.constructed h0)
    ((Source.normalise_ok_iff Q P s0 s).1 hn).2.1 P
  rw [hn] at h1; cases h1; exact h2

/-- **C06.**  `normalise_fusion_power` multiplies every cell strength of every reaction, every
reaction rate and every neutron rate by one factor, `P` over the previous power, and changes
nothing else; the factor is positive if `P` and the previous power are. -/
theorem C06_one_factor {pi : K} {Q : Reaction → K} {sv : Reaction → List K → Except Err (List K)}
    {s s' : Source K} {P : K} (h : Reachable pi Q sv s) (hn : s.normalise Q P = .ok s') :
    ∃ c, c = P / s.totalPower Q ∧ (0 < P → 0 < s.totalPower Q → 0 < c) ∧
      s'.x = s.x ∧ s'.z = s.z ∧ s'.dVolume = s.dVolume ∧ s'.temperature = s.temperature ∧
      s'.cellSideLength = s.cellSideLength ∧ s'.sourceType = s.sourceType ∧
      ∀ r, s'.strength.get? r = (s.strength.get? r).map (fun cells => cells.map (fun v => v * c)) ∧
        s'.numReactions.get? r = (s.numReactions.get? r).map (fun v => v * c) ∧
        s'.numNeutrons.get? r = (s.numNeutrons.get? r).map (fun v => v * c) := by
  obtain ⟨f, hf⟩ := reachable_closed h
  obtain ⟨_, _, rfl⟩ := (Source.normalise_ok_iff Q P s s').1 hn
  refine ⟨_, rfl, fun h1 h2 => div_pos h1 h2, ?_⟩
  rw [(hf.scale _).1]
  exact ⟨rfl, rfl, rfl, rfl, rfl, rfl, fun r =>
    ⟨Dict.get?_map_val _ (fun l : List K => List.map (· * _) l) r, Dict.get?_map_val _ (· * _) r,
      Dict.get?_map_val _ (· * _) r⟩⟩

/-- **C06**, consequence: a positive factor keeps non-negative strengths non-negative. -/
theorem C06_nonneg {pi : K} {Q : Reaction → K} {sv : Reaction → List K → Except Err (List K)}
    {s s' : Source K} {P : K} (h : Reachable pi Q sv s) (hn : s.normalise Q P = .ok s')
    (hP : 0 < P) (hpow : 0 < s.totalPower Q)
    (hs : ∀ r cells, s.strength.get? r = some cells → ∀ v ∈ cells, 0 ≤ v) :
    ∀ r cells, s'.strength.get? r = some cells → ∀ v ∈ cells, 0 ≤ v := by
  obtain ⟨c, _, hc, _, _, _, _, _, _, hr⟩ := C06_one_factor h hn
  intro r cells e v hv
  rw [(hr r).1, Option.map_eq_some_iff] at e
  obtain ⟨cells0, e0, rfl⟩ := e
  obtain ⟨w, hw, rfl⟩ := List.mem_map.1 hv
  exact mul_nonneg (hs r cells0 e0 w hw) (hc hP hpow).le

theorem normalise_twice {Q : Reaction → K} {s s1 : Source K} {P P' : K} {f : Reaction → List K}
    (hf : s.Closed f) (h1 : s.normalise Q P = .ok s1) (hP : P ≠ 0) :
    s1.normalise Q P' = s.normalise Q P' := by
  obtain ⟨hne, hp, e1⟩ := (Source.normalise_ok_iff Q P s s1).1 h1
  have hpow : s1.totalPower Q = P := by rw [e1, hf.scale_power]; field_simp
  have hst : s1.sourceType = s.sourceType := by rw [e1, (hf.scale _).1]
  have hf1 := (hf.scale (P / s.totalPower Q)).2
  rw [← e1] at hf1
  have h2 := (Source.normalise_ok_iff Q P' s1 _).2 ⟨by rwa [hst], by rwa [hpow], rfl⟩
  have h3 := (Source.normalise_ok_iff Q P' s _).2 ⟨hne, hp, rfl⟩
  rw [h2, h3]
  congr 1
  rw [(hf1.scale _).1, (hf.scale _).1]
  have key : ∀ a : K, a * (P / s.totalPower Q) * (P' / s1.totalPower Q) =
      a * (P' / s.totalPower Q) := by
    intro a; rw [hpow]; field_simp
  have e2 := (hf.scale (P / s.totalPower Q)).1
  rw [← e1] at e2
  have key' := key
  revert key'
  generalize P' / s1.totalPower Q = c'
  intro key'
  rw [e2]
  simp only [List.map_map, Function.comp_def, key']

/-- **C05.**  Any history of normalisations with non-zero powers, followed by one more
normalisation, succeeds and gives the same source as that last one alone. -/
theorem C05_last_wins {pi : K} {Q : Reaction → K} {sv : Reaction → List K → Except Err (List K)}
    {s : Source K} (h : Reachable pi Q sv s) (hp : s.totalPower Q ≠ 0)
    (Ps : List K) (hPs : ∀ P ∈ Ps, P ≠ 0) (P : K) :
    s.normalises Q (Ps ++ [P]) = s.normalise Q P ∧ ∃ s', s.normalise Q P = .ok s' := by
  refine ⟨?_, ?_⟩
  · induction Ps generalizing s with
    | nil =>
      simp only [Source.normalises, List.nil_append, List.foldlM_cons, List.foldlM_nil]
      cases s.normalise Q P <;> rfl
    | cons a l ih =>
      obtain ⟨s1, h1, h2⟩ := C03_normalise_reaches h hp a
      have ha : a ≠ 0 := hPs a List.mem_cons_self
      have := ih (Reachable.normalised h h1) (by rw [h2]; exact ha)
        (fun P hP => hPs P (List.mem_cons_of_mem _ hP))
      obtain ⟨f, hf⟩ := reachable_closed h
      rw [normalise_twice hf h1 ha] at this
      rw [← this]
      simp only [Source.normalises, List.cons_append, List.foldlM_cons, h1]
      rfl
  · obtain ⟨s', h1, _⟩ := C03_normalise_reaches h hp P
    exact ⟨s', h1⟩

/-- **C05**, fixed point: normalising to the power the source has changes nothing. -/
theorem C05_fixed_point {pi : K} {Q : Reaction → K} {sv : Reaction → List K → Except Err (List K)}
    {s : Source K} (h : Reachable pi Q sv s) (hp : s.totalPower Q ≠ 0) :
    s.normalise Q (s.totalPower Q) = .ok s := by
  obtain ⟨f, hf⟩ := reachable_closed h
  obtain ⟨s', h1, _⟩ := C03_normalise_reaches h hp (s.totalPower Q)
  rw [h1]
  obtain ⟨_, _, rfl⟩ := (Source.normalise_ok_iff Q _ s s').1 h1
  rw [(hf.scale _).1, div_self hp]
  simp

/-- **C08.**  `source_rate` is the sum over the channels of yield times reaction rate,
`source_T_rate` the sum of tritons consumed times reaction rate, and they differ exactly by the
D-D(n) reaction rate (zero if D-D is not a channel). -/
theorem C08_source_rates {pi : K} {Q : Reaction → K} {sv : Reaction → List K → Except Err (List K)}
    {s : Source K} (h : Reachable pi Q sv s) :
    s.sourceRate = (s.sourceType.map (fun r =>
      (neutronYield r : K) * s.numReactions.getD r 0)).sum ∧
    s.sourceTRate = (s.sourceType.map (fun r =>
      (tritonsConsumed r : K) * s.numReactions.getD r 0)).sum ∧
    s.sourceRate - s.sourceTRate = s.numReactions.getD .DDn 0 := by
  obtain ⟨f, h0, h1, h2, h3⟩ := reachable_closed h
  have hg : ∀ r, s.numReactions.getD r 0 = if r ∈ s.sourceType then (f r).sum else 0 := by
    intro r
    rw [Dict.getD, h2, Dict.get?_map_pair]
    split <;> simp
  have e1 : s.sourceRate = (s.sourceType.map (fun r =>
      (neutronYield r : K) * s.numReactions.getD r 0)).sum := by
    simp only [Source.sourceRate, h3, Dict.values, List.map_map, Function.comp_def]
    congr 1
    apply List.map_congr_left
    intro r hr
    rw [hg r, if_pos hr, numNeutrons_eq_yield, mul_comm]
  -- a sum over a duplicate-free list of channels is the sum over all five channels
  have expand : ∀ (l : List Reaction) (g : Reaction → K), l.Nodup →
      (∀ r, r ∉ l → g r = 0) →
      (l.map g).sum = g .DT + g .DDn + g .DDp + g .TT + g .DHe3 := by
    intro l
    induction l with
    | nil => intro g _ hg; simp [hg]
    | cons a l ih =>
      intro g hl hg'
      rw [List.nodup_cons] at hl
      rw [List.map_cons, List.sum_cons]
      have hgl : (l.map g).sum = (l.map (fun r => if r = a then 0 else g r)).sum := by
        congr 1
        apply List.map_congr_left
        intro r hr
        have : r ≠ a := fun e => hl.1 (e ▸ hr)
        simp [this]
      rw [hgl, ih (fun r => if r = a then 0 else g r) hl.2 (by
        intro r hr
        by_cases e : r = a
        · simp [e]
        · simp only [e, if_false]; exact hg' r (by simp [e, hr]))]
      rcases a with (_ | _ | _) | (_ | _) <;> simp [Reaction.n.injEq] <;> ring
  have z : ∀ (c : Reaction → K) r, r ∉ s.sourceType → c r * s.numReactions.getD r 0 = 0 := by
    intro c r hr; rw [hg r, if_neg hr, mul_zero]
  have e2 : s.sourceTRate = (s.sourceType.map (fun r =>
      (tritonsConsumed r : K) * s.numReactions.getD r 0)).sum := by
    rw [expand _ _ h0 (z _)]
    simp [Source.sourceTRate, tritonsConsumed]
  refine ⟨e1, e2, ?_⟩
  rw [e1, e2, expand _ _ h0 (z _), expand _ _ h0 (z _)]
  simp [tritonsConsumed, neutronYield]

/-- **C08**, consequence: without a D-D channel the two rates coincide. -/
theorem C08_no_DD {pi : K} {Q : Reaction → K} {sv : Reaction → List K → Except Err (List K)}
    {s : Source K} (h : Reachable pi Q sv s) (hd : Reaction.DDn ∉ s.sourceType) :
    s.sourceRate = s.sourceTRate := by
  have h1 := (C08_source_rates h).2.2
  have h2 := ((C04_bookkeeping h).2.2.2.2.2 _ hd).2.1
  rw [Dict.getD, h2] at h1
  simpa [sub_eq_zero] using h1

/-- **C09.**  Two sources built from the same data for different requests agree on every channel
they both have. -/
theorem C09_channel_independence {pi : K} {Q Q' : Reaction → K}
    {sv : Reaction → List K → Except Err (List K)} {tr : TransportView K} {fm : FluxMapView K}
    {arg arg' : SourceArg} {L : K} {s s' : Source K}
    (h : Source.init pi Q sv tr fm arg L none = .ok s)
    (h' : Source.init pi Q' sv tr fm arg' L none = .ok s')
    (r : Reaction) (hr : r ∈ s.sourceType) (hr' : r ∈ s'.sourceType) :
    s.strength.get? r = s'.strength.get? r ∧ s.numReactions.get? r = s'.numReactions.get? r ∧
      s.numNeutrons.get? r = s'.numNeutrons.get? r := by
  obtain ⟨temp, d, t, he, f, _, t1, d1, t2, h1, _, _, _, _, _, ⟨_, c1, c2, c3⟩, hf⟩ :=
    Source.init_none h
  obtain ⟨temp', d', t', he', f', _, t1', d1', t2', h1', _, _, _, _, _, ⟨_, c1', c2', c3'⟩, hf'⟩ :=
    Source.init_none h'
  rw [t1] at t1'; cases t1'
  rw [d1] at d1'; cases d1'
  rw [t2] at t2'; cases t2'
  rw [h1] at h1'; cases h1'
  have e := hf r hr
  rw [hf' r hr'] at e
  have e : f' r = f r := by injection e
  rw [c1, c2, c3, c1', c2', c3']
  simp only [Dict.get?_map_pair, if_pos hr, if_pos hr', e, and_self]

end

section
variable {K : Type} [Field K]

/-- **C10.**  Every entry of `density_weighted_reactivity` is `n_X n_Y <σv> / (1 + δ_XY)`. -/
theorem C10_pointwise (sv : Reaction → List K → Except Err (List K)) (temp d t h s : List K)
    (r : Reaction) (hs : sv r temp = .ok s) (hd : d.length = temp.length)
    (ht : t.length = temp.length) (hh : h.length = temp.length) (hsl : s.length = temp.length) :
    ∃ w, densityWeightedReactivity sv temp d t h r = .ok w ∧ w.length = temp.length ∧
      ∀ i (hi : i < temp.length), w[i]? = some (rateDensity
        (fun | .deuterium => d[i]'(by omega) | .tritium => t[i]'(by omega)
             | .helium3 => h[i]'(by omega)) (s[i]'(by omega)) r) := by
  refine ⟨List.zipWith (· * ·) (pairDensity r d t h) s, ?_, ?_, ?_⟩
  · simp [densityWeightedReactivity, hs, Bind.bind, Except.bind]
  · rcases r with (_ | _ | _) | (_ | _) <;> simp [pairDensity, *]
  · intro i hi
    have h1 : i < d.length := by omega
    have h2 : i < t.length := by omega
    have h3 : i < h.length := by omega
    have h4 : i < s.length := by omega
    rcases r with (_ | _ | _) | (_ | _) <;>
      simp [pairDensity, rateDensity, reactants, h1, h2, h3, h4] <;> ring

/-- **C10**, absent reactant: if either reactant has zero density the rate density is zero. -/
theorem C10_absent (n : Species → K) (sv : K) (r : Reaction)
    (h : n (reactants r).1 = 0 ∨ n (reactants r).2 = 0) : rateDensity n sv r = 0 := by
  rcases h with h | h <;> simp [rateDensity, h]

/-- **C10**, scaling: a common factor on all densities scales the rate density quadratically. -/
theorem C10_scaling (n : Species → K) (sv c : K) (r : Reaction) :
    rateDensity (fun x => c * n x) sv r = c ^ 2 * rateDensity n sv r := by
  simp only [rateDensity]; ring

/-- **C10**, both D-D branches use the same pair density: with equal reactivities they have equal
rate densities. -/
theorem C10_dd_branches (sv : Reaction → List K → Except Err (List K)) (temp d t h : List K)
    (e : sv .DDn temp = sv .DDp temp) :
    densityWeightedReactivity sv temp d t h .DDn = densityWeightedReactivity sv temp d t h .DDp := by
  simp only [densityWeightedReactivity, e, pairDensity]

/-- **C10**, sign: non-negative densities and reactivity give a non-negative rate density, and
positive ones a positive rate density. -/
theorem C10_sign [LinearOrder K] [IsStrictOrderedRing K] (n : Species → K) (sv : K) (r : Reaction) :
    ((∀ x, 0 ≤ n x) → 0 ≤ sv → 0 ≤ rateDensity n sv r) ∧
    (0 < n (reactants r).1 → 0 < n (reactants r).2 → 0 < sv → 0 < rateDensity n sv r) := by
  constructor
  · intro h1 h2
    unfold rateDensity
    have := h1 (reactants r).1
    have := h1 (reactants r).2
    split <;> positivity
  · intro h1 h2 h3
    unfold rateDensity
    split <;> positivity

end

/-! ### The hypotheses are met: a 3 × 3 cell source with the default channels -/
namespace Ex

theorem init_src : Source.init 3 Q sv transport flux .none (1/2) none = .ok src := by
  simp only [Source.init, C01_default]
  decide +kernel

theorem src_reachable : Reachable 3 Q sv src := .constructed init_src

/-- The example source has non-zero power, so `C03`, `C05`, `C06` apply to it. -/
theorem src_power : src.totalPower Q = 125499 / 2 := by decide +kernel

/-- `C08` and `C09` are not about empty dictionaries: all four channels are there. -/
example : src.numReactions.getD .TT 0 ≠ 0 ∧ src.numReactions.getD .DDn 0 ≠ 0 := by decide +kernel

example : Source.init 3 Q sv transport flux (.str "T-T") (1/2) none ≠ .ok src ∧
    (Source.init 3 Q sv transport flux (.str "T-T") (1/2) none).isOk := by
  have : parseSourceType (.str "T-T") = .ok [.TT] := by
    simp only [parseSourceType, finish_eq_filter]; decide +kernel
  simp only [Source.init, this]
  decide +kernel

end Ex
end TNS
