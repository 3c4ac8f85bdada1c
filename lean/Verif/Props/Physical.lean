import Verif.Spec.Physical
import Verif.Props.Source
import Verif.Props.Space
import Verif.Lemmas.MapM
/-
End-to-end properties of constructed sources: C10 (strength formula), C11 (power), C64.
-/

set_option autoImplicit false
set_option linter.unusedSectionVars false

namespace TNS
open Spec

section
variable {K : Type} [Field K] [LinearOrder K] [IsStrictOrderedRing K] [FloorRing K]

/-- **C10**, end to end: in a source constructed without a power, the strength of reaction `r` in
cell `i` is the rate density at that cell (densities and temperature taken from the profiles at the
cell's normalised flux) times the cell volume `2π x L²`. -/
theorem C10_strength_formula {pi : K} {Q : Reaction → K}
    {sv : Reaction → List K → Except Err (List K)} {tr : TransportView K} {fm : FluxMapView K}
    {arg : SourceArg} {L : K} {s : Source K}
    (hlen : ∀ r T w, sv r T = .ok w → w.length = T.length)
    (h : Source.init pi Q sv tr fm arg L none = .ok s) (r : Reaction) (hr : r ∈ s.sourceType) :
    ∃ cells w, s.strength.get? r = some cells ∧ sv r s.temperature = .ok w ∧
      cells.length = s.x.length ∧ s.z.length = s.x.length ∧ s.temperature.length = s.x.length ∧
      w.length = s.x.length ∧
      ∀ (i : ℕ) (x z T v c : K), s.x[i]? = some x → s.z[i]? = some z →
        s.temperature[i]? = some T → w[i]? = some v → cells[i]? = some c →
        tr.temperature (fm.psiNorm x z) = .ok T ∧
        ∃ nd nt nh, tr.deuterium (fm.psiNorm x z) = .ok nd ∧
          tr.tritium (fm.psiNorm x z) = .ok nt ∧ tr.helium3 (fm.psiNorm x z) = .ok nh ∧
          c = rateDensity (fun | .deuterium => nd | .tritium => nt | .helium3 => nh) v r *
            (2 * pi * x * L ^ 2) := by
  obtain ⟨temp, d, t, he, f, _, t1, d1, t2, h1, hx, hz, hv, _, hT, ⟨_, c1, _, _⟩, hf⟩ :=
    Source.init_none h
  obtain ⟨harr, hl1, hl2⟩ := C12_arrays pi fm.lcfsX fm.lcfsZ fm.inside fm.oX fm.oZ L
  have hdv : (sampleSpace2d pi fm.lcfsX fm.lcfsZ fm.inside fm.oX fm.oZ L).dVolume =
      (sampleSpace2d pi fm.lcfsX fm.lcfsZ fm.inside fm.oX fm.oZ L).x.map
        (fun x => 2 * pi * x * L ^ 2) := by
    simp [sampleSpace2d, cellVolume]
  generalize sampleSpace2d pi fm.lcfsX fm.lcfsZ fm.inside fm.oX fm.oZ L = smp at *
  clear harr
  have ept := mapM_length t1
  have epd := mapM_length d1
  have ept2 := mapM_length t2
  have eph := mapM_length h1
  simp only [List.length_zipWith, ← hl1, min_self] at ept epd ept2 eph
  have e := hf r hr
  unfold strengthOf at e
  cases hs : sv r temp with
  | error err =>
    simp [densityWeightedReactivity, hs, Bind.bind, Except.bind] at e
  | ok w =>
  have hw := hlen _ _ _ hs
  obtain ⟨ww, hww, hwl, hwi⟩ := C10_pointwise sv temp d t he w r hs (by omega) (by omega)
    (by omega) hw
  rw [hww] at e
  simp only [Bind.bind, Except.bind, Except.ok.injEq] at e
  refine ⟨f r, w, ?_, ?_, ?_, ?_, ?_, ?_, ?_⟩
  · rw [c1, Dict.get?_map_pair, if_pos hr]
  · rw [hT, hs]
  · rw [← e, hx, List.length_zipWith]; omega
  · rw [hx, hz]; omega
  · rw [hT, hx]; omega
  · rw [hx]; omega
  · intro i x z T v c ex ez eT ev ec
    rw [hx] at ex; rw [hz] at ez; rw [hT] at eT
    obtain ⟨ix, rfl⟩ := List.getElem?_eq_some_iff.1 ex
    obtain ⟨iz, rfl⟩ := List.getElem?_eq_some_iff.1 ez
    obtain ⟨iT, rfl⟩ := List.getElem?_eq_some_iff.1 eT
    obtain ⟨iv, rfl⟩ := List.getElem?_eq_some_iff.1 ev
    have ip : i < (List.zipWith fm.psiNorm smp.x smp.z).length := by
      rw [List.length_zipWith]; omega
    have gT := mapM_get t1 i ip iT
    have gd := mapM_get d1 i ip (by omega)
    have gt := mapM_get t2 i ip (by omega)
    have gh := mapM_get h1 i ip (by omega)
    simp only [List.getElem_zipWith] at gT gd gt gh
    refine ⟨gT, _, _, _, gd, gt, gh, ?_⟩
    have hi := hwi i iT
    rw [← e, List.getElem?_zipWith, hi, hdv, List.getElem?_map, ex] at ec
    simp only [Option.map_some, Option.some.injEq] at ec
    rw [← ec]
    congr 2

/-- **C11**, power: the total fusion power of any reachable source is the sum over its channels of
reaction rate times energy per reaction. -/
theorem C11_power {pi : K} {Q : Reaction → K} {sv : Reaction → List K → Except Err (List K)}
    {s : Source K} (h : Reachable pi Q sv s) :
    s.totalPower Q = (s.sourceType.map (fun r => s.numReactions.getD r 0 * Q r)).sum := by
  obtain ⟨f, hf⟩ := reachable_closed h
  rw [hf.totalPower]
  congr 1
  apply List.map_congr_left
  intro r hr
  rw [hf.2.2.1, Dict.getD, Dict.get?_map_pair, if_pos hr]
  rfl

theorem Spec.PhysReachable.reachable {pi : K} {Q : Reaction → K}
    {sv : Reaction → List K → Except Err (List K)} {s : Source K} (h : PhysReachable pi Q sv s) :
    Reachable pi Q sv s := by
  induction h with
  | constructed _ _ h => exact .constructed h
  | normalised _ _ h ih => exact .normalised ih h

/-- State facts of a physical source. -/
structure Source.Phys (s : Source K) : Prop where
  z_len : s.z.length = s.x.length
  temp_len : s.temperature.length = s.x.length
  len : ∀ r cells, s.strength.get? r = some cells → cells.length = s.x.length
  nonneg : ∀ r cells, s.strength.get? r = some cells → ∀ v ∈ cells, 0 ≤ v

theorem phys_init {pi : K} {Q : Reaction → K} {sv : Reaction → List K → Except Err (List K)}
    {tr : TransportView K} {fm : FluxMapView K} {arg : SourceArg} {L : K} {s : Source K}
    (hin : PhysicalInput pi Q sv tr fm)
    (h : Source.init pi Q sv tr fm arg L none = .ok s) : s.Phys := by
  have hmem : ∀ r cells, s.strength.get? r = some cells → r ∈ s.sourceType := by
    intro r cells e
    by_contra hn
    have := ((C04_bookkeeping (Reachable.constructed h)).2.2.2.2.2 r hn).1
    rw [this] at e; cases e
  have hx : ∀ x ∈ s.x, 0 < x := by
    obtain ⟨temp, d, t, he, f, _, _, _, _, _, hx, _⟩ := Source.init_none h
    intro x hxm
    rw [hx] at hxm
    simp only [sampleSpace2d, List.mem_map] at hxm
    obtain ⟨p, hp, rfl⟩ := hxm
    unfold samplePoints at hp
    exact hin.radius p (List.mem_filter.1 hp).2
  have hL : s.z.length = s.x.length ∧ s.temperature.length = s.x.length := by
    obtain ⟨temp, d, t, he, f, _, t1, _, _, _, hx, hz, _, _, hT, _⟩ := Source.init_none h
    obtain ⟨_, hl1, hl2⟩ := C12_arrays pi fm.lcfsX fm.lcfsZ fm.inside fm.oX fm.oZ L
    have ept := mapM_length t1
    rw [hx, hz, hT]
    simp only [List.length_zipWith, ← hl1, min_self] at ept
    exact ⟨hl1.symm, ept⟩
  refine ⟨hL.1, hL.2, ?_, ?_⟩
  · intro r cells e
    obtain ⟨cells', w, e', _, hl, _⟩ := C10_strength_formula hin.sv_length h r (hmem r cells e)
    rw [e] at e'; cases e'; exact hl
  · intro r cells e v hv
    obtain ⟨cells', w, e', hw, hl, hl2, hl3, hl4, hi⟩ :=
      C10_strength_formula hin.sv_length h r (hmem r cells e)
    rw [e] at e'; cases e'
    obtain ⟨i, ii, rfl⟩ := List.mem_iff_getElem.1 hv
    have := hi i (s.x[i]'(by omega)) (s.z[i]'(by omega)) (s.temperature[i]'(by omega))
      (w[i]'(by omega)) cells[i] (List.getElem?_eq_getElem _) (List.getElem?_eq_getElem _)
      (List.getElem?_eq_getElem _) (List.getElem?_eq_getElem _) (List.getElem?_eq_getElem _)
    obtain ⟨_, nd, nt, nh, e1, e2, e3, e4⟩ := this
    rw [e4]
    have hxi := hx (s.x[i]'(by omega)) (List.getElem_mem _)
    have := hin.pi_pos
    apply mul_nonneg
    · apply (C10_sign _ _ _).1
      · rintro (_ | _ | _)
        · exact hin.deuterium _ _ e1
        · exact hin.tritium _ _ e2
        · exact hin.helium3 _ _ e3
      · exact hin.sv_nonneg _ _ _ hw _ (List.getElem_mem _)
    · positivity

theorem power_nonneg {Q : Reaction → K} (hQ : ∀ r, 0 < Q r) {s : Source K} (h : s.Phys) :
    0 ≤ s.totalPower Q := by
  unfold Source.totalPower
  apply List.sum_nonneg
  intro a ha
  obtain ⟨r, _, rfl⟩ := List.mem_map.1 ha
  apply List.sum_nonneg
  intro b hb
  obtain ⟨v, hv, rfl⟩ := List.mem_map.1 hb
  apply mul_nonneg _ (hQ r).le
  unfold Dict.getD at hv
  cases e : s.strength.get? r with
  | none => rw [e] at hv; simp at hv
  | some cells => rw [e] at hv; exact h.nonneg r cells e v hv

theorem phys_normalise {pi : K} {Q : Reaction → K} {sv : Reaction → List K → Except Err (List K)}
    {s s' : Source K} {P : K} (hQ : ∀ r, 0 < Q r) (hr : Reachable pi Q sv s) (h : s.Phys)
    (hP : 0 < P) (hn : s.normalise Q P = .ok s') : s'.Phys := by
  have hpow := power_nonneg hQ h
  have hpow : 0 < s.totalPower Q :=
    lt_of_le_of_ne hpow (Ne.symm ((Source.normalise_ok_iff Q P s s').1 hn).2.1)
  obtain ⟨c, _, hc, e1, e2, _, e4, _, _, e⟩ := C06_one_factor hr hn
  refine ⟨by rw [e1, e2]; exact h.z_len, by rw [e1, e4]; exact h.temp_len, ?_, 
    C06_nonneg hr hn hP hpow h.nonneg⟩
  intro r cells ec
  rw [(e r).1, Option.map_eq_some_iff] at ec
  obtain ⟨c0, ec, rfl⟩ := ec
  rw [List.length_map, e1]
  exact h.len r c0 ec

theorem Spec.PhysReachable.phys {pi : K} {Q : Reaction → K}
    {sv : Reaction → List K → Except Err (List K)} {s : Source K} (h : PhysReachable pi Q sv s) :
    (∀ r, 0 < Q r) ∧ s.Phys := by
  induction h with
  | @constructed tr fm arg L power s hin hP h =>
    refine ⟨hin.Q_pos, ?_⟩
    cases power with
    | none => exact phys_init hin h
    | some P =>
      obtain ⟨s0, h0, hn⟩ := Source.init_some h
      exact phys_normalise hin.Q_pos (.constructed h0) (phys_init hin h0) (hP P rfl) hn
  | normalised hs hP h ih =>
    exact ⟨ih.1, phys_normalise ih.1 hs.reachable ih.2 hP h⟩

/-- **C64**, signs: in every state of a source with physical inputs, each channel has one
non-negative strength per cell, and reaction rates, neutron rates, source rate, tritium rate and
total power are non-negative. -/
theorem C64_nonneg {pi : K} {Q : Reaction → K} {sv : Reaction → List K → Except Err (List K)}
    {s : Source K} (h : PhysReachable pi Q sv s) :
    (∀ r cells, s.strength.get? r = some cells →
      cells.length = s.x.length ∧ ∀ v ∈ cells, 0 ≤ v) ∧
    (∀ r v, s.numReactions.get? r = some v → 0 ≤ v) ∧
    (∀ r v, s.numNeutrons.get? r = some v → 0 ≤ v) ∧
    0 ≤ s.sourceRate ∧ 0 ≤ s.sourceTRate ∧ 0 ≤ s.totalPower Q := by
  obtain ⟨hQ, hp⟩ := h.phys
  have hr := h.reachable
  have hnum : ∀ r v, s.numReactions.get? r = some v → 0 ≤ v := by
    intro r v e
    by_cases hm : r ∈ s.sourceType
    · obtain ⟨cells, e1, e2, _⟩ := (C04_bookkeeping hr).2.2.2.2.1 r hm
      rw [e] at e2; cases e2
      exact List.sum_nonneg (hp.nonneg r cells e1)
    · rw [((C04_bookkeeping hr).2.2.2.2.2 r hm).2.1] at e; cases e
  have hnumD : ∀ r, 0 ≤ s.numReactions.getD r 0 := by
    intro r
    unfold Dict.getD
    cases e : s.numReactions.get? r with
    | none => exact le_refl _
    | some v => exact hnum r v e
  refine ⟨fun r cells e => ⟨hp.len r cells e, hp.nonneg r cells e⟩, hnum, ?_, ?_, ?_,
    power_nonneg hQ hp⟩
  · intro r v e
    by_cases hm : r ∈ s.sourceType
    · obtain ⟨cells, e1, _, e2⟩ := (C04_bookkeeping hr).2.2.2.2.1 r hm
      rw [e] at e2; cases e2
      exact mul_nonneg (List.sum_nonneg (hp.nonneg r cells e1)) (Nat.cast_nonneg _)
    · rw [((C04_bookkeeping hr).2.2.2.2.2 r hm).2.2] at e; cases e
  · rw [(C08_source_rates hr).1]
    apply List.sum_nonneg
    intro a ha
    obtain ⟨r, _, rfl⟩ := List.mem_map.1 ha
    exact mul_nonneg (Nat.cast_nonneg _) (hnumD r)
  · rw [(C08_source_rates hr).2.1]
    apply List.sum_nonneg
    intro a ha
    obtain ⟨r, _, rfl⟩ := List.mem_map.1 ha
    exact mul_nonneg (Nat.cast_nonneg _) (hnumD r)

/-- **C64**, positivity: if in some cell both reactants of a channel are present and the reactivity
is positive, that cell's strength, the channel's reaction rate and the total power are positive. -/
theorem C64_positive {pi : K} {Q : Reaction → K} {sv : Reaction → List K → Except Err (List K)}
    {tr : TransportView K} {fm : FluxMapView K} {arg : SourceArg} {L : K} {s : Source K}
    (hin : PhysicalInput pi Q sv tr fm) (hL : 0 < L)
    (h : Source.init pi Q sv tr fm arg L none = .ok s)
    (r : Reaction) (hr : r ∈ s.sourceType) (i : ℕ) (x z v : K) (w : List K)
    (hx : s.x[i]? = some x) (hz : s.z[i]? = some z) (hw : sv r s.temperature = .ok w)
    (hv : w[i]? = some v) (hvp : 0 < v)
    (hd : ∃ n, tr.deuterium (fm.psiNorm x z) = .ok n ∧
      ((reactants r).1 = .deuterium ∨ (reactants r).2 = .deuterium → 0 < n))
    (ht : ∃ n, tr.tritium (fm.psiNorm x z) = .ok n ∧
      ((reactants r).1 = .tritium ∨ (reactants r).2 = .tritium → 0 < n))
    (hh : ∃ n, tr.helium3 (fm.psiNorm x z) = .ok n ∧
      ((reactants r).1 = .helium3 ∨ (reactants r).2 = .helium3 → 0 < n)) :
    ∃ cells c, s.strength.get? r = some cells ∧ cells[i]? = some c ∧ 0 < c ∧
      0 < s.numReactions.getD r 0 ∧ 0 < s.totalPower Q := by
  obtain ⟨cells, w', e', hw', hl, hl2, hl3, hl4, hi⟩ := C10_strength_formula hin.sv_length h r hr
  rw [hw] at hw'; cases hw'
  obtain ⟨ix, _⟩ := List.getElem?_eq_some_iff.1 hx
  obtain ⟨_, nd, nt, nh, e1, e2, e3, e4⟩ := hi i x z (s.temperature[i]'(by omega)) v
    (cells[i]'(by omega)) hx hz (List.getElem?_eq_getElem _) hv (List.getElem?_eq_getElem _)
  obtain ⟨nd', hd1, hd2⟩ := hd
  obtain ⟨nt', ht1, ht2⟩ := ht
  obtain ⟨nh', hh1, hh2⟩ := hh
  rw [e1] at hd1; cases hd1
  rw [e2] at ht1; cases ht1
  rw [e3] at hh1; cases hh1
  have hxp : 0 < x := by
    obtain ⟨temp, d, t, he, f, _, _, _, _, _, hxx, _⟩ := Source.init_none h
    have hxm := List.mem_of_getElem? hx
    rw [hxx] at hxm
    simp only [sampleSpace2d, List.mem_map] at hxm
    obtain ⟨p, hp, rfl⟩ := hxm
    unfold samplePoints at hp
    exact hin.radius p (List.mem_filter.1 hp).2
  have hpi := hin.pi_pos
  have hc : 0 < cells[i]'(by omega) := by
    rw [e4]
    apply mul_pos
    · apply (C10_sign _ _ _).2
      · rcases r with (_ | _ | _) | (_ | _) <;> simp_all [reactants]
      · rcases r with (_ | _ | _) | (_ | _) <;> simp_all [reactants]
      · exact hvp
    · positivity
  have hreach : PhysReachable pi Q sv s := .constructed hin (by simp) h
  have hnn := C64_nonneg hreach
  have hsum : 0 < cells.sum := by
    refine lt_of_lt_of_le hc ?_
    exact List.single_le_sum (hnn.1 r cells e').2 _ (List.getElem_mem _)
  have hnum : s.numReactions.getD r 0 = cells.sum := by
    obtain ⟨cells', e1, e2, _⟩ := (C04_bookkeeping hreach.reachable).2.2.2.2.1 r hr
    rw [e'] at e1; cases e1
    simp [Dict.getD, e2]
  refine ⟨cells, _, e', List.getElem?_eq_getElem (by omega), hc, by rw [hnum]; exact hsum, ?_⟩
  rw [C11_power hreach.reachable]
  have hm : s.numReactions.getD r 0 * Q r ∈
      s.sourceType.map (fun r => s.numReactions.getD r 0 * Q r) := List.mem_map_of_mem hr
  refine lt_of_lt_of_le (mul_pos (by rw [hnum]; exact hsum) (hin.Q_pos r))
    (List.single_le_sum ?_ _ hm)
  intro a ha
  obtain ⟨r', _, rfl⟩ := List.mem_map.1 ha
  apply mul_nonneg _ (hin.Q_pos r').le
  unfold Dict.getD
  cases e : s.numReactions.get? r' with
  | none => exact le_refl _
  | some v => exact hnn.2.1 r' v e

end

/-! ### The example source has physical inputs -/
namespace Ex

/-- A transport with densities that vanish at the boundary and stay zero outside. -/
def transportPos : TransportView ℚ :=
  { transport with
    deuterium := fun p => .ok (max 0 (3 * (1 - p)))
    tritium := fun p => .ok (max 0 (2 * (1 - p))) }

def svPos : Reaction → List ℚ → Except Err (List ℚ) := fun r T =>
  .ok (T.map (fun t => if r = .DT then t ^ 2 else max 0 t))

theorem physical : PhysicalInput 3 Q svPos transportPos flux where
  pi_pos := by norm_num
  Q_pos := by rintro ((_ | _ | _) | (_ | _)) <;> norm_num [Q]
  deuterium := by rintro p n ⟨⟩; exact le_max_left _ _
  tritium := by rintro p n ⟨⟩; exact le_max_left _ _
  helium3 := by rintro p n ⟨⟩; exact le_refl _
  radius := by
    intro p hp
    simp only [flux, decide_eq_true_eq] at hp
    linarith [hp.1]
  sv_length := by rintro r T w ⟨⟩; simp
  sv_nonneg := by
    rintro r T w ⟨⟩ v hv
    obtain ⟨t, _, rfl⟩ := List.mem_map.1 hv
    split
    · positivity
    · exact le_max_left _ _

theorem init_src_pos : Source.init 3 Q svPos transportPos flux .none (1/2) none = .ok src := by
  simp only [Source.init, C01_default]
  decide +kernel

theorem src_phys : PhysReachable 3 Q svPos src := .constructed physical (by simp) init_src_pos

end Ex
end TNS
